import Verif.Props.AuthEnc
import Verif.Props.IdealCipher
import Verif.Props.Eue
import Verif.Props.SymExact
import Verif.Props.Latke
import Verif.Props.Pake
import Verif.Props.SigDh
import Verif.Props.Hmqv
import Verif.Props.Fg
import Verif.Props.SigmaR
import Verif.Props.Chip
import Verif.Props.ChipExact
import Verif.Props.EndToEnd
import Verif.Props.PakeExact
import Verif.Props.IbkeExact
import Verif.Props.IbkeMessages
import Verif.Props.LatkeAuth
import Verif.Props.Saber
import Verif.Props.SaberKem
import Verif.Props.SaberExact
import Verif.Props.Dilithium
import Verif.Props.Shipped
import Verif.Props.Keccak
import Verif.Props.DilithiumLinked
import Verif.Props.LatkeExact
import Verif.Props.Lengths
import Verif.Props.Avx2Ntt
import Verif.Props.Avx2Poly
import Verif.Props.Avx2Sign
import Verif.Props.Avx2Keccak
import Verif.Props.Avx2Linked
import Verif.Props.Machine
import Verif.Props.Kat
import Verif.Props.Privacy
import Verif.Props.SigmaEnum
import Verif.Props.LightFail
import Verif.Props.Replay
import Verif.Props.LatkeFail
import Verif.Props.Neon
import Verif.Props.NeonKeccak
import Verif.Props.NeonLinked
import Verif.Props.NeonMachine
import Verif.Props.Dilithium35
import Verif.Props.Shipped35
import Verif.Props.Neon35
import Verif.Props.Avx235
import Verif.Props.Avx2Verify35
import Verif.Props.Avx2Sign35
import Verif.Props.Dilithium35Linked
import Verif.Props.Machine35
import Verif.Props.Witness
