import Verif.Sky.Twilight
import Verif.Sky.Horizontal
import Verif.Sky.Phase
import Verif.Sky.Geometry
import Verif.Sky.Azimuth

/-
Collects the theorems about the sky geometry of events (C43 to C48, C59, C65).
-/
