import Verif.Props.Sampling
import Verif.Props.Ransac
import Verif.Props.Lmeds
import Verif.Props.MultiRansac
import Verif.Props.MultiAdapter
import Verif.Props.Triangulation
import Verif.Props.SacProblems
import Verif.Props.Rotation
import Verif.Props.Arun
import Verif.Props.Roots
import Verif.Props.GaussJordan
import Verif.Props.Sturm
import Verif.Props.RelativePose
import Verif.Props.FivePoint
import Verif.Props.Eigensolver
import Verif.Props.Ge
import Verif.Props.P3p
import Verif.Props.Upnp
import Verif.Props.Epnp
import Verif.Props.Gpnp
import Verif.Props.Adapters
import Verif.Props.Refine
import Verif.Props.Seventeenpt
import Verif.Props.FiveKneip
import Verif.Props.UpnpAction
import Verif.Props.Sixpt
import Verif.Props.SixptSac
import Verif.Props.Gp3p
import Verif.Props.AbsSac
import Verif.Props.RelSac
import Verif.Props.WholeSac
import Verif.Props.LmedsWhole
import Verif.Props.Experiment
import Verif.Props.ExperimentMulti
import Verif.Props.Mex
import Verif.Props.Python
import Verif.Props.PythonSolvers
