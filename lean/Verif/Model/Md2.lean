import Verif.Model.CoreWrapper
/- Model of MD2: /repo/md2/src/lib.rs, /repo/md2/src/consts.rs. -/
namespace Hashes.Md2

/-- `S`, consts.rs:2-16 -/
def S : List Byte := [
  41, 46, 67, 201, 162, 216, 124, 1, 61, 54, 84, 161, 236, 240, 6, 19,
  98, 167, 5, 243, 192, 199, 115, 140, 152, 147, 43, 217, 188, 76, 130, 202,
  30, 155, 87, 60, 253, 212, 224, 22, 103, 66, 111, 24, 138, 23, 229, 18,
  190, 78, 196, 214, 218, 158, 222, 73, 160, 251, 245, 142, 187, 47, 238, 122,
  169, 104, 121, 145, 21, 178, 7, 63, 148, 194, 16, 137, 11, 34, 95, 33,
  128, 127, 93, 154, 90, 144, 50, 39, 53, 62, 204, 231, 191, 247, 151, 3,
  255, 25, 48, 179, 72, 165, 181, 209, 215, 94, 146, 42, 172, 86, 170, 198,
  79, 184, 56, 210, 150, 164, 125, 182, 118, 252, 107, 226, 156, 116, 4, 241,
  69, 157, 112, 89, 100, 113, 135, 32, 134, 91, 207, 101, 230, 45, 168, 2,
  27, 96, 37, 173, 174, 176, 185, 246, 28, 70, 97, 105, 52, 64, 126, 15,
  85, 71, 163, 35, 221, 81, 175, 58, 195, 92, 249, 206, 186, 197, 234, 38,
  44, 83, 13, 110, 133, 40, 132, 9, 211, 223, 205, 244, 65, 129, 77, 82,
  106, 220, 55, 200, 108, 193, 171, 250, 36, 225, 123, 8, 12, 189, 177, 74,
  120, 136, 149, 139, 227, 99, 232, 109, 233, 203, 213, 254, 59, 0, 29, 57,
  242, 239, 183, 14, 102, 88, 208, 228, 166, 119, 114, 248, 235, 117, 75, 10,
  49, 68, 80, 180, 143, 237, 31, 26, 219, 153, 141, 51, 159, 17, 131, 20]

/-- `S[i]` for a `u8` index. -/
def s (i : Byte) : Byte := S.getD i.toNat 0

/-- `Md2Core`, lib.rs:35-38: `x: [u8; 48]`, `checksum: [u8; 16]`. -/
@[ext] structure State where
  x : Bytes
  checksum : Bytes
deriving DecidableEq

/-- Inner loop, lib.rs:55-58: `x[k] ^= S[t]; t = x[k]` along the array; result `(x, t)`. -/
def pass : Bytes → Byte → Bytes × Byte
  | [], t => ([], t)
  | b :: l, t =>
    let b' := b ^^^ s t
    let r := pass l b'
    (b' :: r.1, r.2)

/-- Outer loop, lib.rs:54-60, rounds `0 .. n-1`; result `(x, t)`. -/
def rounds (x : Bytes) : Nat → Bytes × Byte
  | 0 => (x, 0)
  | n + 1 =>
    let r := rounds x n
    let p := pass r.1 r.2
    (p.1, p.2 + BitVec.ofNat 8 n)

/-- Checksum loop, lib.rs:64-67: over `(checksum[j], block[j])`. -/
def checksumLoop : List (Byte × Byte) → Byte → Bytes
  | [], _ => []
  | (c, b) :: l, ll =>
    let c' := c ^^^ s (b ^^^ ll)
    c' :: checksumLoop l c'

/-- `compress`, lib.rs:46-68. The first loop (lib.rs:48-51) sets `x[16..32] = block`,
`x[32..48] = x[16..32] ^ x[0..16]`. -/
def compress (st : State) (block : Bytes) : State :=
  let x0 := st.x.take 16
  let x := x0 ++ block ++ List.zipWith (· ^^^ ·) block x0
  let x := (rounds x 18).1
  let l := st.checksum.getD 15 0
  ⟨x, checksumLoop (st.checksum.zip block) l⟩

/-- `default()`, lib.rs:109-117 -/
def init : State := ⟨List.replicate 48 0, List.replicate 16 0⟩

/-- `update_blocks`, lib.rs:87-91 -/
def updateBlocks (st : State) (blks : List Bytes) : State := blks.foldl compress st

/-- `finalize_fixed_core`, lib.rs:96-106; `remaining()` is `16 - pos`. -/
def finalize (st : State) (buffer : BlockBuffer) : Bytes :=
  let pos := buffer.pos
  let rem : Byte := BitVec.ofNat 8 (16 - pos)
  let block := (buffer.padWithZeros 16).1
  let block := block.take pos ++ (block.drop pos).map (fun _ => rem)
  let st := compress st block
  let st := compress st st.checksum
  st.x.take 16

/-- `serialize`, lib.rs:159-161 -/
def serialize (st : State) : Bytes := st.x ++ st.checksum

/-- `deserialize`, lib.rs:163-172 -/
def deserialize (raw : Bytes) : Option State :=
  if raw.length = 64 then some ⟨raw.take 48, raw.drop 48⟩ else none

/-- `Md2 = CoreWrapper<Md2Core>`, lib.rs:41 (block size :74, `Eager` :78, reset :119-124). -/
def md2 : Core State Bytes where
  kind := .eager
  bs := 16
  init := init
  updateBlocks := updateBlocks
  finalize := finalize
  reset := fun _ => init
  serialize := serialize
  deserialize := deserialize
  serLen := 64

end Hashes.Md2
