import Verif.Props.Vuint
import Verif.Props.Power
import Verif.Props.Fp
import Verif.Props.Tower
import Verif.Props.Ec
import Verif.Props.Pairing
import Verif.Props.Util
import Verif.Props.Text
import Verif.Props.Sint
import Verif.Props.Zm
import Verif.Props.Init
import Verif.Props.X64
import Verif.Props.Alias
import Verif.Props.Java
import Verif.Props.Jit
import Verif.Props.JitInit
import Verif.Props.Cpp
import Verif.Props.Tmpl
import Verif.Props.CppAte
import Verif.Snark.Field
import Verif.Props.Snark
import Verif.Props.SnarkFinal
import Verif.Pairing.Abs
import Verif.Pairing.AbsNondeg
import Verif.Snark.Gamma
import Verif.Snark.Miller
import Verif.Snark.Phi
import Verif.Snark.Value
import Verif.Snark.Order
import Verif.Snark.MillerRun
import Verif.Snark.PairRun
import Verif.Snark.PairWrong
import Verif.Props.SnarkPair
import Verif.Ec.Hom
import Verif.Snark.Ec
import Verif.Props.SnarkEc
import Verif.Snark.Comp
import Verif.Snark.CompVal
import Verif.Snark.CompRun
import Verif.Snark.CompInf
import Verif.Props.SnarkComp
import Verif.Snark.Text
import Verif.Snark.Jit
import Verif.Snark.JitDbl
import Verif.Props.SnarkText
import Verif.Props.SnarkJit
import Verif.Pairing.Infinity
import Verif.Pairing.LineRun
import Verif.Props.PairingInf
import Verif.Snark.CompInfP
import Verif.Props.SnarkCompInf
import Verif.Ec.Session
import Verif.Props.Session
import Verif.Snark.ProdRun
import Verif.Props.Product
import Verif.Jit.Debug
import Verif.Props.JitDebug
import Verif.Fp.Gmp
import Verif.Props.Gmp
import Verif.PowerInt
import Verif.Props.NegScalar
import Verif.Props.GtSession
import Verif.Jit.Cpu
import Verif.Props.Cpu
