import Verif.Sha256.Props
import Verif.Event.Props
import Verif.Tle.Props
import Verif.Adsb.Props
import Verif.RootFinding.Props
import Verif.Daf.Props
import Verif.Interp.Props
import Verif.Interp.TimeProps
import Verif.Spk.Props
import Verif.TextKernel.Props
import Verif.Frames.Props
import Verif.Ck.Props
import Verif.Sky.Props
import Verif.Ccsds.Props
import Verif.Sp3.Props
import Verif.Rinex.Props
import Verif.Sck.Props
import Verif.Cpf.Props
import Verif.Naming.Props
import Verif.Naming.Wrappers
import Verif.Ffi.Props
import Verif.Search.Props
import Verif.Search.GivesUp
import Verif.Solar.Props
import Verif.Altitude.Props
import Verif.Moon.Props
import Verif.Orbit.Props
import Verif.Star.Props
import Verif.Estimation.Props
import Verif.Pod.Props
import Verif.Earth.Props
import Verif.Mission.Props
import Verif.Apparent.Props
import Verif.Grid.Props
import Verif.Forces.Props
import Verif.Kvn.Props
import Verif.Igs.Props
import Verif.Omm.Props
import Verif.Eop.Props
import Verif.Atmosphere.Props
import Verif.Crd.Props
import Verif.Obs.Props
import Verif.Doris.Props
import Verif.Lagrange.Props
import Verif.Series.Props
import Verif.Kernels.Props
import Verif.Centers.Props
import Verif.Horizon.Props
import Verif.Product.Props
import Verif.Assembly.Props
import Verif.Handles.Props
import Verif.Catalog.Props
import Verif.Bodies.Props
import Verif.MeanElements.Props
import Verif.Stellar.Periods
import Verif.Place.Props
import Verif.Provider.Props
import Verif.Boundary.Props
import Verif.Targets.Props
import Verif.Passband.Props
import Verif.Elp.Props
import Verif.OemXml.Props
import Verif.CFrames.Props
import Verif.COrbit.Props
import Verif.SunModel.Props
import Verif.Spk.Coverage
import Verif.Daf.Bsp
import Verif.CTarget.Props
import Verif.CEph.Props
import Verif.CTle.Props
import Verif.Handover.Props
import Verif.StmCheck.Props
import Verif.CSky.Props
import Verif.Runtime.Props
import Verif.Sites.Props
import Verif.SolarSystem.Props
import Verif.CStar.Props
import Verif.Bracketing.Props
