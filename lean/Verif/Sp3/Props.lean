import Verif.Sp3.Stream
import Verif.Sp3.Read
import Verif.Sp3.Write

/- Properties C52, C67 and C68: SP3 files (`Stream`, `Read`, `Write`). -/
