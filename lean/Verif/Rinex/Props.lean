import Verif.Rinex.Nav
import Verif.Rinex.Write

/-
Properties C53 (`Nav`) and C54 (`Write`).
-/
