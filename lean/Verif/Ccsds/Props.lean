import Verif.Ccsds.Xml
import Verif.Ccsds.Epoch
import Verif.Ccsds.Reader
import Verif.Ccsds.Write

/- Properties C49, C50, C51 and C66: orbit ephemeris messages (`Epoch`, `Reader`, `Xml`, `Write`). -/
