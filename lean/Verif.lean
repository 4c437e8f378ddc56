import Verif.Catalog
import Verif.CatalogFaults
import Verif.Cpp.AsconCalls
import Verif.Cpp.EschCalls
import Verif.Cpp.Mac
import Verif.Cpp.Program
import Verif.Cpp.Semantics
import Verif.Cpp.Src.Absorb
import Verif.Cpp.Src.Ascon
import Verif.Cpp.Src.Clear
import Verif.Cpp.Src.Esch
import Verif.Cpp.Src.Functions
import Verif.Cpp.Src.Kmac
import Verif.Cpp.Src.Md5
import Verif.Cpp.Src.Sha1
import Verif.Cpp.Src.Sha256
import Verif.Cpp.Src.Sha3
import Verif.Cpp.Src.Sha512
import Verif.Cpp.Src.Shake
import Verif.Cpp.Src.Sm3
import Verif.Cpp.Src.Whirlpool
import Verif.Cpp.Xof
import Verif.FaultVocab
import Verif.History
import Verif.LeakVocab
import Verif.Model.Absorb
import Verif.Model.Arrays
import Verif.Model.Ascon
import Verif.Model.Basic
import Verif.Model.Blake
import Verif.Model.Blake2
import Verif.Model.Blake2p
import Verif.Model.BlakeRound
import Verif.Model.Calls
import Verif.Model.Ctors
import Verif.Model.Echo
import Verif.Model.Esch
import Verif.Model.Faults
import Verif.Model.Functions
import Verif.Model.Groestl
import Verif.Model.Hasher
import Verif.Model.Jh
import Verif.Model.K12
import Verif.Model.Kmac
import Verif.Model.Kupyna
import Verif.Model.Leak
import Verif.Model.Leak.Ascon
import Verif.Model.Leak.Blake
import Verif.Model.Leak.Echo
import Verif.Model.Leak.Esch
import Verif.Model.Leak.Groestl
import Verif.Model.Leak.Hash
import Verif.Model.Leak.Jh
import Verif.Model.Leak.Lsh
import Verif.Model.Leak.Md5
import Verif.Model.Leak.Run
import Verif.Model.Leak.Sha1
import Verif.Model.Leak.Sha2
import Verif.Model.Leak.Sha3
import Verif.Model.Leak.Skein
import Verif.Model.Leak.Streebog
import Verif.Model.Leak.Tree
import Verif.Model.Leak.Whirlpool
import Verif.Model.Leak.Xof
import Verif.Model.Locals.Ascon
import Verif.Model.Locals.Blake
import Verif.Model.Locals.Buffers
import Verif.Model.Locals.Echo
import Verif.Model.Locals.Esch
import Verif.Model.Locals.Groestl
import Verif.Model.Locals.Jh
import Verif.Model.Locals.Lsh
import Verif.Model.Locals.Md5
import Verif.Model.Locals.Sha1
import Verif.Model.Locals.Sha2
import Verif.Model.Locals.Sha3
import Verif.Model.Locals.Skein
import Verif.Model.Locals.Streebog
import Verif.Model.Locals.Whirlpool
import Verif.Model.Lsh
import Verif.Model.Md5
import Verif.Model.MdFinal
import Verif.Model.Overloads
import Verif.Model.Pointers
import Verif.Model.Sha1
import Verif.Model.Sha2
import Verif.Model.Sha3
import Verif.Model.Shake
import Verif.Model.Skein
import Verif.Model.Sm3
import Verif.Model.Streebog
import Verif.Model.Tables.Ascon
import Verif.Model.Tables.Blake
import Verif.Model.Tables.Blake2
import Verif.Model.Tables.Echo
import Verif.Model.Tables.Esch
import Verif.Model.Tables.Groestl
import Verif.Model.Tables.Jh
import Verif.Model.Tables.Kupyna
import Verif.Model.Tables.Lsh
import Verif.Model.Tables.Md5
import Verif.Model.Tables.Sha1
import Verif.Model.Tables.Sha2
import Verif.Model.Tables.Sha3
import Verif.Model.Tables.Skein
import Verif.Model.Tables.Streebog
import Verif.Model.Tables.Whirlpool
import Verif.Model.Threads
import Verif.Model.Validate
import Verif.Model.Whirlpool
import Verif.Model.Width
import Verif.Proofs.Absorb
import Verif.Proofs.Aes
import Verif.Proofs.Api
import Verif.Proofs.Arrays
import Verif.Proofs.Ascon
import Verif.Proofs.AsconCore
import Verif.Proofs.Bits
import Verif.Proofs.Blake
import Verif.Proofs.Blake2
import Verif.Proofs.Blake2Core
import Verif.Proofs.Blake2X
import Verif.Proofs.Blake2p
import Verif.Proofs.BlakeRound
import Verif.Proofs.CShake
import Verif.Proofs.Catalog
import Verif.Proofs.Clear
import Verif.Proofs.Collision
import Verif.Proofs.Conforms
import Verif.Proofs.Cpp.Absorb
import Verif.Proofs.Cpp.Ascon
import Verif.Proofs.Cpp.AsconInit
import Verif.Proofs.Cpp.AsconRun
import Verif.Proofs.Cpp.AsconSqueeze
import Verif.Proofs.Cpp.Clear
import Verif.Proofs.Cpp.Esch
import Verif.Proofs.Cpp.EschRun
import Verif.Proofs.Cpp.EschSparkle
import Verif.Proofs.Cpp.EschSqueeze
import Verif.Proofs.Cpp.Final
import Verif.Proofs.Cpp.Hash
import Verif.Proofs.Cpp.Init512
import Verif.Proofs.Cpp.Kmac
import Verif.Proofs.Cpp.LeftEncode
import Verif.Proofs.Cpp.Md5
import Verif.Proofs.Cpp.Meaning
import Verif.Proofs.Cpp.Members
import Verif.Proofs.Cpp.RightEncode
import Verif.Proofs.Cpp.Sha1
import Verif.Proofs.Cpp.Sha256
import Verif.Proofs.Cpp.Sha3
import Verif.Proofs.Cpp.Sha3Hash
import Verif.Proofs.Cpp.Sha3Round
import Verif.Proofs.Cpp.Sha512
import Verif.Proofs.Cpp.Shake
import Verif.Proofs.Cpp.ShakeInit
import Verif.Proofs.Cpp.ShakeXof
import Verif.Proofs.Cpp.Sm3
import Verif.Proofs.Cpp.Steps
import Verif.Proofs.Cpp.Trans
import Verif.Proofs.Cpp.Whirlpool
import Verif.Proofs.Cpp.WhirlpoolHash
import Verif.Proofs.Echo
import Verif.Proofs.EchoCore
import Verif.Proofs.EmptyParam
import Verif.Proofs.Encode
import Verif.Proofs.Esch
import Verif.Proofs.EschCore
import Verif.Proofs.Extension
import Verif.Proofs.Faults
import Verif.Proofs.Gap
import Verif.Proofs.GapBlake2
import Verif.Proofs.GapLaws
import Verif.Proofs.GapSkein
import Verif.Proofs.GapSmall
import Verif.Proofs.GapSponge
import Verif.Proofs.Groestl
import Verif.Proofs.GroestlTables
import Verif.Proofs.Indep
import Verif.Proofs.IndepBlake2
import Verif.Proofs.IndepEsch
import Verif.Proofs.IndepRun
import Verif.Proofs.IndepShake
import Verif.Proofs.IndepSkein
import Verif.Proofs.Injective
import Verif.Proofs.Inner
import Verif.Proofs.Inputs
import Verif.Proofs.Interface
import Verif.Proofs.Jh
import Verif.Proofs.JhCore
import Verif.Proofs.K12
import Verif.Proofs.Keccak
import Verif.Proofs.KeccakPad
import Verif.Proofs.Kmac
import Verif.Proofs.Kupyna
import Verif.Proofs.KupynaTables
import Verif.Proofs.Late
import Verif.Proofs.LateSponge
import Verif.Proofs.Laws
import Verif.Proofs.LeWords
import Verif.Proofs.Leak.Ascon
import Verif.Proofs.Leak.Basic
import Verif.Proofs.Leak.Blake
import Verif.Proofs.Leak.Echo
import Verif.Proofs.Leak.Esch
import Verif.Proofs.Leak.Groestl
import Verif.Proofs.Leak.HashBlake
import Verif.Proofs.Leak.HashMd
import Verif.Proofs.Leak.HashSponge
import Verif.Proofs.Leak.HashTwin
import Verif.Proofs.Leak.Jh
import Verif.Proofs.Leak.Lsh
import Verif.Proofs.Leak.Md5
import Verif.Proofs.Leak.Reveal
import Verif.Proofs.Leak.Reveal2
import Verif.Proofs.Leak.Sha1
import Verif.Proofs.Leak.Sha2
import Verif.Proofs.Leak.Sha3
import Verif.Proofs.Leak.Skein
import Verif.Proofs.Leak.Streebog
import Verif.Proofs.Leak.TreeBlake2p
import Verif.Proofs.Leak.TreeK12
import Verif.Proofs.Leak.TreeTwin
import Verif.Proofs.Leak.Twin
import Verif.Proofs.Leak.Whirlpool
import Verif.Proofs.Leak.XofAscon
import Verif.Proofs.Leak.XofBlake2
import Verif.Proofs.Leak.XofShake
import Verif.Proofs.Leak.XofSkein
import Verif.Proofs.Leak.XofTwin
import Verif.Proofs.Locals.Ascon
import Verif.Proofs.Locals.Blake
import Verif.Proofs.Locals.Buffers
import Verif.Proofs.Locals.Echo
import Verif.Proofs.Locals.Esch
import Verif.Proofs.Locals.Groestl
import Verif.Proofs.Locals.Jh
import Verif.Proofs.Locals.Lsh
import Verif.Proofs.Locals.Sha1
import Verif.Proofs.Locals.Sha2
import Verif.Proofs.Locals.Sha3
import Verif.Proofs.Locals.Skein
import Verif.Proofs.Locals.Total
import Verif.Proofs.Locals.Whirlpool
import Verif.Proofs.Lsh
import Verif.Proofs.Md5
import Verif.Proofs.MdFinal
import Verif.Proofs.Numeral
import Verif.Proofs.Pack
import Verif.Proofs.Pack32
import Verif.Proofs.Pad
import Verif.Proofs.PadFinal
import Verif.Proofs.PadOne
import Verif.Proofs.Perm
import Verif.Proofs.PermAscon
import Verif.Proofs.PermBlake
import Verif.Proofs.PermEcho
import Verif.Proofs.PermEsch
import Verif.Proofs.PermFeed
import Verif.Proofs.PermGroestl
import Verif.Proofs.PermJh
import Verif.Proofs.PermKeccak
import Verif.Proofs.PermKupyna
import Verif.Proofs.PermLsh
import Verif.Proofs.PermMd
import Verif.Proofs.PermRows
import Verif.Proofs.PermSkein
import Verif.Proofs.PermStreebog
import Verif.Proofs.PermTables
import Verif.Proofs.PermWhirlpool
import Verif.Proofs.Pointers
import Verif.Proofs.PointersSafe
import Verif.Proofs.Safety
import Verif.Proofs.SafetyAscon
import Verif.Proofs.SafetyBlake2
import Verif.Proofs.SafetyShake
import Verif.Proofs.SafetySkein
import Verif.Proofs.Sched
import Verif.Proofs.Separate
import Verif.Proofs.Sha1
import Verif.Proofs.Sha2
import Verif.Proofs.Sha3
import Verif.Proofs.Shake
import Verif.Proofs.Shifts
import Verif.Proofs.Sizes
import Verif.Proofs.Skein
import Verif.Proofs.SkeinCore
import Verif.Proofs.Sm3
import Verif.Proofs.Sponge
import Verif.Proofs.Streebog
import Verif.Proofs.StreebogSum
import Verif.Proofs.StreebogTables
import Verif.Proofs.Threads
import Verif.Proofs.ThreadsRace
import Verif.Proofs.TornKey
import Verif.Proofs.Tree
import Verif.Proofs.Ub
import Verif.Proofs.Validate
import Verif.Proofs.Whirlpool
import Verif.Proofs.Wide.Boxes
import Verif.Proofs.Wide.Ddt
import Verif.Proofs.Wide.Echo
import Verif.Proofs.Wide.Fast
import Verif.Proofs.Wide.Field
import Verif.Proofs.Wide.Groestl
import Verif.Proofs.Wide.Kupyna
import Verif.Proofs.Wide.Layer
import Verif.Proofs.Wide.Mds
import Verif.Proofs.Wide.Rounds
import Verif.Proofs.Wide.Sboxes
import Verif.Proofs.Wide.Streebog
import Verif.Proofs.Wide.TKlog
import Verif.Proofs.Wide.Tables
import Verif.Proofs.Wide.Trail
import Verif.Proofs.Wide.Uniform
import Verif.Proofs.Wide.Whirlpool
import Verif.Proofs.Width
import Verif.Proofs.Words
import Verif.Properties.Api
import Verif.Properties.Ascon
import Verif.Properties.Blake
import Verif.Properties.Blake2
import Verif.Properties.Blake2p
import Verif.Properties.CShakeShake
import Verif.Properties.Calls
import Verif.Properties.Clear
import Verif.Properties.Collision
import Verif.Properties.Copies
import Verif.Properties.Ctors
import Verif.Properties.Echo
import Verif.Properties.EmptyParam
import Verif.Properties.EmptySqueeze
import Verif.Properties.Encodings
import Verif.Properties.Esch
import Verif.Properties.Extension
import Verif.Properties.Faults
import Verif.Properties.FeedForward
import Verif.Properties.Groestl
import Verif.Properties.Indep
import Verif.Properties.InnerCollision
import Verif.Properties.Inputs
import Verif.Properties.Jh
import Verif.Properties.K12
import Verif.Properties.Kmac
import Verif.Properties.Kupyna
import Verif.Properties.Late
import Verif.Properties.Leak
import Verif.Properties.LeakRun
import Verif.Properties.LeakTree
import Verif.Properties.LeakXof
import Verif.Properties.Locals
import Verif.Properties.Lsh
import Verif.Properties.Md5
import Verif.Properties.Overloads
import Verif.Properties.Permutes
import Verif.Properties.Pointers
import Verif.Properties.Safety
import Verif.Properties.SameOutput
import Verif.Properties.Sboxes
import Verif.Properties.Separate
import Verif.Properties.Sha1
import Verif.Properties.Sha2
import Verif.Properties.Sha3
import Verif.Properties.Shake
import Verif.Properties.Shifts
import Verif.Properties.Sizes
import Verif.Properties.Skein
import Verif.Properties.Sm3
import Verif.Properties.Source
import Verif.Properties.SourceAscon
import Verif.Properties.SourceClear
import Verif.Properties.SourceEsch
import Verif.Properties.SourceMac
import Verif.Properties.SpongeInputs
import Verif.Properties.StaticSize
import Verif.Properties.Streebog
import Verif.Properties.Threads
import Verif.Properties.Tree
import Verif.Properties.Whirlpool
import Verif.Properties.WideTrail
import Verif.Properties.Width
import Verif.Properties.Wipe
import Verif.Spec.Active
import Verif.Spec.ActiveEcho
import Verif.Spec.Api
import Verif.Spec.Ascon
import Verif.Spec.Bits
import Verif.Spec.Blake
import Verif.Spec.Blake2
import Verif.Spec.BlakeRound
import Verif.Spec.Blocks
import Verif.Spec.Clear
import Verif.Spec.Collision
import Verif.Spec.Cpp
import Verif.Spec.Differential
import Verif.Spec.Echo
import Verif.Spec.Esch
import Verif.Spec.Extension
import Verif.Spec.Faults
import Verif.Spec.Forget
import Verif.Spec.Gap
import Verif.Spec.GapFns
import Verif.Spec.Gf
import Verif.Spec.Groestl
import Verif.Spec.Inner
import Verif.Spec.Inputs
import Verif.Spec.Jh
import Verif.Spec.K12
import Verif.Spec.Keccak
import Verif.Spec.Kupyna
import Verif.Spec.Late
import Verif.Spec.Lsh
import Verif.Spec.Md
import Verif.Spec.Md5
import Verif.Spec.Memory
import Verif.Spec.Permutes
import Verif.Spec.Pieces
import Verif.Spec.Pointers
import Verif.Spec.Safety
import Verif.Spec.Sha1
import Verif.Spec.Sha2
import Verif.Spec.Skein
import Verif.Spec.Sm3
import Verif.Spec.Sp800185
import Verif.Spec.SpongeInputs
import Verif.Spec.Streebog
import Verif.Spec.StreebogField
import Verif.Spec.Threads
import Verif.Spec.Tree
import Verif.Spec.Whirlpool
import Verif.Spec.Width
import Verif.Spec.Words
import Verif.Statements
import Verif.StatementsClear
import Verif.Vocab
