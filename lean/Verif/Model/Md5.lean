import Verif.Base.Vec
import Verif.Model.CoreWrapper
/- Model of MD5: /repo/md5/src/lib.rs, /repo/md5/src/consts.rs, /repo/md5/src/compress/soft.rs. -/
namespace Hashes.Md5

/-- `STATE_INIT`, consts.rs:1 -/
def stateInit : V4 W32 := ⟨0x67452301, 0xEFCDAB89, 0x98BADCFE, 0x10325476⟩

/-- `RC`, consts.rs:3-16 -/
def RC : List W32 := [
  0xd76aa478, 0xe8c7b756, 0x242070db, 0xc1bdceee, 0xf57c0faf, 0x4787c62a, 0xa8304613, 0xfd469501,
  0x698098d8, 0x8b44f7af, 0xffff5bb1, 0x895cd7be, 0x6b901122, 0xfd987193, 0xa679438e, 0x49b40821,
  0xf61e2562, 0xc040b340, 0x265e5a51, 0xe9b6c7aa, 0xd62f105d, 0x02441453, 0xd8a1e681, 0xe7d3fbc8,
  0x21e1cde6, 0xc33707d6, 0xf4d50d87, 0x455a14ed, 0xa9e3e905, 0xfcefa3f8, 0x676f02d9, 0x8d2a4c8a,
  0xfffa3942, 0x8771f681, 0x6d9d6122, 0xfde5380c, 0xa4beea44, 0x4bdecfa9, 0xf6bb4b60, 0xbebfbc70,
  0x289b7ec6, 0xeaa127fa, 0xd4ef3085, 0x04881d05, 0xd9d4d039, 0xe6db99e5, 0x1fa27cf8, 0xc4ac5665,
  0xf4292244, 0x432aff97, 0xab9423a7, 0xfc93a039, 0x655b59c3, 0x8f0ccc92, 0xffeff47d, 0x85845dd1,
  0x6fa87e4f, 0xfe2ce6e0, 0xa3014314, 0x4e0811a1, 0xf7537e82, 0xbd3af235, 0x2ad7d2bb, 0xeb86d391]

/-- `RC[n]`; every use has a literal `n < 64`. -/
def rc (n : Nat) : W32 := RC.getD n 0

/-- `op_f`, soft.rs:5-12 -/
def opF (w x y z m c : W32) (s : Nat) : W32 := (((x &&& y) ||| (~~~x &&& z)) + w + m + c).rotateLeft s + x
/-- `op_g`, soft.rs:14-21 -/
def opG (w x y z m c : W32) (s : Nat) : W32 := (((x &&& z) ||| (y &&& ~~~z)) + w + m + c).rotateLeft s + x
/-- `op_h`, soft.rs:24-31 -/
def opH (w x y z m c : W32) (s : Nat) : W32 := ((x ^^^ y ^^^ z) + w + m + c).rotateLeft s + x
/-- `op_i`, soft.rs:34-41 -/
def opI (w x y z m c : W32) (s : Nat) : W32 := ((y ^^^ (x ||| ~~~z)) + w + m + c).rotateLeft s + x

/-- `compress_block`, soft.rs:44-143 -/
def compressBlock (state : V4 W32) (input : Bytes) : V4 W32 :=
  let a := state.x0
  let b := state.x1
  let c := state.x2
  let d := state.x3
  let data := wordLE 32 input
  let a := opF a b c d (data 0) (rc 0) 7
  let d := opF d a b c (data 1) (rc 1) 12
  let c := opF c d a b (data 2) (rc 2) 17
  let b := opF b c d a (data 3) (rc 3) 22
  let a := opF a b c d (data 4) (rc 4) 7
  let d := opF d a b c (data 5) (rc 5) 12
  let c := opF c d a b (data 6) (rc 6) 17
  let b := opF b c d a (data 7) (rc 7) 22
  let a := opF a b c d (data 8) (rc 8) 7
  let d := opF d a b c (data 9) (rc 9) 12
  let c := opF c d a b (data 10) (rc 10) 17
  let b := opF b c d a (data 11) (rc 11) 22
  let a := opF a b c d (data 12) (rc 12) 7
  let d := opF d a b c (data 13) (rc 13) 12
  let c := opF c d a b (data 14) (rc 14) 17
  let b := opF b c d a (data 15) (rc 15) 22
  let a := opG a b c d (data 1) (rc 16) 5
  let d := opG d a b c (data 6) (rc 17) 9
  let c := opG c d a b (data 11) (rc 18) 14
  let b := opG b c d a (data 0) (rc 19) 20
  let a := opG a b c d (data 5) (rc 20) 5
  let d := opG d a b c (data 10) (rc 21) 9
  let c := opG c d a b (data 15) (rc 22) 14
  let b := opG b c d a (data 4) (rc 23) 20
  let a := opG a b c d (data 9) (rc 24) 5
  let d := opG d a b c (data 14) (rc 25) 9
  let c := opG c d a b (data 3) (rc 26) 14
  let b := opG b c d a (data 8) (rc 27) 20
  let a := opG a b c d (data 13) (rc 28) 5
  let d := opG d a b c (data 2) (rc 29) 9
  let c := opG c d a b (data 7) (rc 30) 14
  let b := opG b c d a (data 12) (rc 31) 20
  let a := opH a b c d (data 5) (rc 32) 4
  let d := opH d a b c (data 8) (rc 33) 11
  let c := opH c d a b (data 11) (rc 34) 16
  let b := opH b c d a (data 14) (rc 35) 23
  let a := opH a b c d (data 1) (rc 36) 4
  let d := opH d a b c (data 4) (rc 37) 11
  let c := opH c d a b (data 7) (rc 38) 16
  let b := opH b c d a (data 10) (rc 39) 23
  let a := opH a b c d (data 13) (rc 40) 4
  let d := opH d a b c (data 0) (rc 41) 11
  let c := opH c d a b (data 3) (rc 42) 16
  let b := opH b c d a (data 6) (rc 43) 23
  let a := opH a b c d (data 9) (rc 44) 4
  let d := opH d a b c (data 12) (rc 45) 11
  let c := opH c d a b (data 15) (rc 46) 16
  let b := opH b c d a (data 2) (rc 47) 23
  let a := opI a b c d (data 0) (rc 48) 6
  let d := opI d a b c (data 7) (rc 49) 10
  let c := opI c d a b (data 14) (rc 50) 15
  let b := opI b c d a (data 5) (rc 51) 21
  let a := opI a b c d (data 12) (rc 52) 6
  let d := opI d a b c (data 3) (rc 53) 10
  let c := opI c d a b (data 10) (rc 54) 15
  let b := opI b c d a (data 1) (rc 55) 21
  let a := opI a b c d (data 8) (rc 56) 6
  let d := opI d a b c (data 15) (rc 57) 10
  let c := opI c d a b (data 6) (rc 58) 15
  let b := opI b c d a (data 13) (rc 59) 21
  let a := opI a b c d (data 4) (rc 60) 6
  let d := opI d a b c (data 11) (rc 61) 10
  let c := opI c d a b (data 2) (rc 62) 15
  let b := opI b c d a (data 9) (rc 63) 21
  ⟨state.x0 + a, state.x1 + b, state.x2 + c, state.x3 + d⟩

/-- `compress`, soft.rs:146-150 -/
def compress (state : V4 W32) (blks : List Bytes) : V4 W32 := blks.foldl compressBlock state

/-- `Md5Core`, lib.rs:35-38. -/
@[ext] structure State where
  blockLen : W64
  state : V4 W32
deriving DecidableEq

/-- `default()`, lib.rs:84-92 -/
def init : State := ⟨0, stateInit⟩

/-- `update_blocks`, lib.rs:61-65 -/
def updateBlocks (s : State) (blks : List Bytes) : State :=
  ⟨s.blockLen + BitVec.ofNat 64 blks.length, compress s.state blks⟩

/-- `finalize_fixed_core`, lib.rs:70-81 -/
def finalize (s : State) (buffer : BlockBuffer) : Bytes :=
  let bitLen : W64 := (s.blockLen * 64 + BitVec.ofNat 64 buffer.pos) * 8
  let st := buffer.len64PaddingLE 64 bitLen (fun st b => compress st [b]) s.state
  bytesOfWordsLE st.toList

/-- `serialize`, lib.rs:131-140 -/
def serialize (s : State) : Bytes := bytesOfWordsLE s.state.toList ++ leBytes 8 s.blockLen.toNat

/-- `deserialize`, lib.rs:142-155 -/
def deserialize (raw : Bytes) : Option State :=
  if raw.length = 24 then
    some ⟨BitVec.ofNat 64 (ofLE (raw.drop 16)), V4.ofFn (wordLE 32 raw)⟩
  else none

/-- `Md5 = CoreWrapper<Md5Core>`, lib.rs:41 (block size :48, `Eager` :52, reset :94-99). -/
def md5 : Core State Bytes where
  kind := .eager
  bs := 64
  init := init
  updateBlocks := updateBlocks
  finalize := finalize
  reset := fun _ => init
  serialize := serialize
  deserialize := deserialize
  serLen := 24

end Hashes.Md5
