import Verif.Props.Trie
import Verif.Props.Codec
import Verif.Props.Db
import Verif.Props.Proof
import Verif.Props.Sound
import Verif.Props.Panic
import Verif.Props.Wire
import Verif.Props.Ipa
import Verif.Props.Multi
import Verif.Props.Eip
import Verif.Props.Msm
import Verif.Props.Bander
import Verif.Props.Concrete
import Verif.Props.Ffi
import Verif.Props.Commitments
import Verif.Props.Witness
import Verif.Props.Updater
import Verif.Props.Rewind
import Verif.Props.RewindTrie
import Verif.Props.Java
import Verif.Props.CBind
import Verif.Props.Reload
import Verif.Props.PointTrie
import Verif.Props.UpdateSound
import Verif.Props.CrsSeed
import Verif.Props.Convince
import Verif.Props.Rom
import Verif.Props.Serialize
import Verif.Props.RomBytes
import Verif.Props.RomClients
import Verif.Props.Complete
import Verif.Props.RomIpa
import Verif.Props.Follow
import Verif.Props.State
import Verif.Props.Size
import Verif.Props.Memory
import Verif.Props.Padding
import Verif.Props.OneStem
import Verif.Props.Storage
import Verif.Props.CrsHex
import Verif.Props.DiskProof
import Verif.Props.Extractor
import Verif.Props.Agree
import Verif.Props.RomPair
import Verif.Props.Footprint
import Verif.Props.Coins
import Verif.Props.Tables
import Verif.Props.Raw
import Verif.Props.Digest
import Verif.Props.Chosen
import Verif.Props.Collide
import Verif.Props.Separate
import Verif.Props.Robust
import Verif.Props.Unchecked
import Verif.Props.RobustBytes
import Verif.Props.Absence
import Verif.Props.DigestCoins
import Verif.Props.ForgeMany
import Verif.Props.Json
import Verif.Props.JsonText
import Verif.Props.JsonWitness
import Verif.Props.JsonSize
import Verif.Vectors.Opening
import Verif.Vectors.Witness
import Verif.Vectors.WitnessText
import Verif.Vectors.Trie
import Verif.Vectors.Keys
import Verif.Vectors.ProverIpa
import Verif.Vectors.ProverMulti
import Verif.Audit
