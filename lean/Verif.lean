import Verif.Base.Bytes
import Verif.Base.Chunks
import Verif.Model.Asn1
import Verif.Model.Pkix
import Verif.Props.Asn1
import Verif.Props.Sha2
import Verif.Props.Poly1305
import Verif.Props.ChaCha
import Verif.Props.Gcm
import Verif.Props.GcmArm
import Verif.Props.Sha3
import Verif.Props.MlKem
import Verif.Props.MlKemCorrect
import Verif.Props.Pkcs
import Verif.Props.PosInt
import Verif.Props.Rsa
import Verif.Props.RsaOps
import Verif.Props.RsaExamples
import Verif.Props.RsaGen
import Verif.Props.EcKeys
import Verif.Props.Ecdsa
import Verif.Props.EcdsaExamples
import Verif.Props.Ed25519
import Verif.Props.Ed25519Keys
import Verif.Props.X25519
import Verif.Props.Ticketer
import Verif.Props.TlsAead
import Verif.Props.Kx
import Verif.Props.TlsSign
import Verif.Props.TlsSignOps
import Verif.Props.TlsSignExamples
import Verif.Props.Drop
import Verif.Props.Sha2Simd
import Verif.Props.TlsPublicKey
import Verif.Props.EcMore
import Verif.Props.AsmX86
import Verif.Props.AsmMont
import Verif.Props.AsmKmul
import Verif.Props.AsmEmontredc
import Verif.Props.AsmN25519
import Verif.Props.AsmKeccak
import Verif.Props.AsmMlKem
import Verif.Props.AsmMlKemRej
import Verif.Props.AsmCpu
import Verif.Props.SelectX86
import Verif.Props.TlsSuites
import Verif.Props.ConstTime
import Verif.Props.SavedRegs
import Verif.Props.AsmField
import Verif.Props.AsmPoint
import Verif.Props.AsmPoint384
import Verif.Props.CpuFeatures
import Verif.Props.Entry
import Verif.Props.ConstTimeVec
import Verif.Props.SavedRegsVec
