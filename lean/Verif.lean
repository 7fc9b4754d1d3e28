import Verif.Props.Arith
import Verif.Props.Group
import Verif.Props.Ecmult
import Verif.Props.Bytes
import Verif.Props.Keys
import Verif.Props.Laws
import Verif.Props.Unique
import Verif.Props.Ecdsa
import Verif.Props.Der
import Verif.Props.Safety
import Verif.Props.Core
import Verif.Props.Static
import Verif.Props.Raw
import Verif.Props.Rfc6979
import Verif.Props.Profiles
import Verif.Props.Release
import Verif.Props.Degenerate
import Verif.Props.Machine
import Verif.Props.Flags
import Verif.Props.Client
import Verif.Props.Counting
import Verif.Props.Boxed
import Verif.Props.Encodings
import Verif.Props.Base64
import Verif.Props.Decoder
import Verif.Props.Leak
import Verif.Props.Residue
import Verif.Props.Debug
import Verif.Props.Forge
import Verif.Props.Exact
import Verif.Props.Contracts
import Verif.Props.LeakVar
import Verif.Props.Recovery
import Verif.Props.ZeroSecret
import Verif.Props.ZeroSign
import Verif.Props.AnySecret
import Verif.Props.Rogue
import Verif.Props.RawSignature
import Verif.Props.MixedKeys
import Verif.Props.Pipelines
import Verif.Props.SignatureCount
import Verif.Props.KeyAgreement
import Verif.Props.NonceSigns
import Verif.Props.RecoverKeys
import Verif.Props.ByteClasses
import Verif.Props.MessageCount
import Verif.Props.Expecting
import Verif.Props.TweakTargets
import Verif.Props.ResidueKeys
import Verif.Props.RecoverMessages
import Verif.Model.LeakKeys
import Verif.Props.LeakKeys
import Verif.Props.EncodingCount
import Verif.Props.DerCount
