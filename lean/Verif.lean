import Verif.Props.Streaming
import Verif.Props.Sha2
import Verif.Props.Md
import Verif.Props.Ripemd
import Verif.Props.Sm3
import Verif.Props.Sha3
import Verif.Props.CShake
import Verif.Props.K12
import Verif.Props.Blake2
import Verif.Props.Tiger
import Verif.Props.Whirlpool
import Verif.Props.Groestl
import Verif.Props.Kupyna
import Verif.Props.Streebog
import Verif.Props.Gost94
import Verif.Props.Jh
import Verif.Props.Shabal
import Verif.Props.Belt
import Verif.Props.Ascon
import Verif.Props.Skein
import Verif.Props.Fsb
import Verif.Props.Sha1Checked
import Verif.Props.Catalogue
import Verif.Props.Sizes
import Verif.Props.Padding
import Verif.Props.Reduction
import Verif.Props.Oid
import Verif.Props.Drop
import Verif.Props.DropCells
import Verif.Props.Counters
import Verif.Props.Backends
import Verif.Props.Interface
import Verif.Props.Target
import Verif.Props.FsbPi
import Verif.Props.Constants
import Verif.Props.Extension
import Verif.Props.Blake2Params
import Verif.Props.Width
import Verif.Props.Checked
import Verif.Props.Memory
import Verif.Props.Pointers
import Verif.Props.Perm
import Verif.Spec.Calls
import Verif.Spec.Inputs
import Verif.Proof.Collide.Basic
import Verif.Proof.Collide.Gost94
import Verif.Proof.Collide.Streebog
import Verif.Proof.Collide.Blake2
import Verif.Proof.Collide.Skein
import Verif.Proof.Collide.Belt
import Verif.Proof.Collide.Md2
import Verif.Proof.Collide.Fsb
import Verif.Proof.Collide.K12
import Verif.Props.Collide
import Verif.Spec.Wide
import Verif.Proof.Wide.Basic
import Verif.Proof.Wide.Chain
import Verif.Proof.Wide.Chain2
import Verif.Proof.Wide.Sponge
import Verif.Props.Wide
import Verif.Base.Leak
import Verif.Base.LeakRaw
import Verif.Leak.Riscv
import Verif.Leak.Sha1Ptr
import Verif.Leak.Sha2Ptr
import Verif.Leak.Sha2Simd
import Verif.Proof.Leak.Loong
import Verif.Proof.Leak.Riscv
import Verif.Proof.Leak.Sha2Simd
import Verif.Proof.Leak.Simd
import Verif.Props.LeakBackends
import Verif.Leak.Ascon
import Verif.Leak.Belt
import Verif.Leak.Blake2
import Verif.Leak.Fsb
import Verif.Leak.Gost94
import Verif.Leak.Groestl
import Verif.Leak.Keccak
import Verif.Leak.Kupyna
import Verif.Leak.Md2
import Verif.Leak.Shabal
import Verif.Leak.Skein
import Verif.Leak.Sm3
import Verif.Leak.SoftPtr
import Verif.Leak.Streebog
import Verif.Leak.Tiger
import Verif.Leak.Whirlpool
import Verif.Proof.Leak.Ascon
import Verif.Proof.Leak.Basic
import Verif.Proof.Leak.Belt
import Verif.Proof.Leak.Blake2
import Verif.Proof.Leak.Fsb
import Verif.Proof.Leak.Gost94
import Verif.Proof.Leak.Groestl
import Verif.Proof.Leak.Keccak
import Verif.Proof.Leak.Kupyna
import Verif.Proof.Leak.Md2
import Verif.Proof.Leak.Recover
import Verif.Proof.Leak.Shabal
import Verif.Proof.Leak.Skein
import Verif.Proof.Leak.Sm3
import Verif.Proof.Leak.Soft
import Verif.Proof.Leak.Streebog
import Verif.Proof.Leak.Tells
import Verif.Proof.Leak.Tiger
import Verif.Proof.Leak.Whirlpool
import Verif.Props.Leak
import Verif.Leak.Sha1Checked
import Verif.Proof.Leak.Sha1Checked
import Verif.Props.LeakSha1
import Verif.Leak.Run
import Verif.Proof.Leak.Run
import Verif.Proof.Leak.Hashers
import Verif.Props.LeakRun
import Verif.Leak.Xof
import Verif.Proof.Leak.Xof
import Verif.Props.LeakXof
import Verif.Props.LeakMac
import Verif.Props.LeakSha1Run
import Verif.Model.Names
import Verif.Proof.Names
import Verif.Props.Names
import Verif.Checked.Run
import Verif.Checked.Hashers
import Verif.Proof.Run
import Verif.Proof.Hashers
import Verif.Proof.HashersPlain
import Verif.Props.Run
import Verif.Props.Resume
import Verif.Props.SaveChecked
import Verif.Checked.Blake2Mac
import Verif.Props.MacChecked
import Verif.Checked.World
import Verif.Checked.WorldVar
import Verif.Proof.World
import Verif.Props.WorldChecked
import Verif.Props.WorldPlain
import Verif.Props.WorldVar
