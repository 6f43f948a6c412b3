import Verif.Base.Vec
import Verif.Model.CoreWrapper
/- Model of SHA-1: /repo/sha1/src/lib.rs, /repo/sha1/src/compress.rs, /repo/sha1/src/compress/soft.rs. -/
namespace Hashes.Sha1

/-- `H0`, /repo/sha1/src/lib.rs:36. -/
def H0 : V5 W32 := ⟨0x67452301, 0xEFCDAB89, 0x98BADCFE, 0x10325476, 0xC3D2E1F0⟩

/-- `K`, /repo/sha1/src/lib.rs:38. -/
def K (i : Nat) : W32 := [0x5A827999, 0x6ED9EBA1, 0x8F1BBCDC, 0xCA62C1D6].getD i 0

/-! ### soft.rs -/

/-- soft.rs:6-13 -/
def add (a b : V4 W32) : V4 W32 := a.zip (· + ·) b
/-- soft.rs:16-18 -/
def xor (a b : V4 W32) : V4 W32 := a.zip (· ^^^ ·) b
/-- `sha1_first_add`, soft.rs:21-24 -/
def firstAdd (e : W32) (w0 : V4 W32) : V4 W32 := ⟨e + w0.x0, w0.x1, w0.x2, w0.x3⟩
/-- soft.rs:26-30 -/
def sha1msg1 (a b : V4 W32) : V4 W32 := ⟨a.x0 ^^^ a.x2, a.x1 ^^^ a.x3, a.x2 ^^^ b.x0, a.x3 ^^^ b.x1⟩
/-- soft.rs:32-42 -/
def sha1msg2 (a b : V4 W32) : V4 W32 :=
  let w16 := (a.x0 ^^^ b.x1).rotateLeft 1
  let w17 := (a.x1 ^^^ b.x2).rotateLeft 1
  let w18 := (a.x2 ^^^ b.x3).rotateLeft 1
  let w19 := (a.x3 ^^^ w16).rotateLeft 1
  ⟨w16, w17, w18, w19⟩
/-- `sha1_first_half`, soft.rs:45-47 -/
def firstHalf (abcd msg : V4 W32) : V4 W32 := firstAdd (abcd.x0.rotateLeft 30) msg

/-- soft.rs:64-68 -/
def bool3ary_202 (a b c : W32) : W32 := c ^^^ (a &&& (b ^^^ c))
/-- soft.rs:102-106 -/
def bool3ary_150 (a b c : W32) : W32 := a ^^^ b ^^^ c
/-- soft.rs:140-144 -/
def bool3ary_232 (a b c : W32) : W32 := (a &&& b) ^^^ (a &&& c) ^^^ (b &&& c)

/-- The common body of `sha1rnds4c` (soft.rs:59-95), `sha1rnds4p` (soft.rs:97-133) and `sha1rnds4m`
(soft.rs:135-171), which differ only in the boolean function `F`. -/
def rnds4 (F : W32 → W32 → W32 → W32) (abcd msg : V4 W32) : V4 W32 :=
  let a := abcd.x0; let b := abcd.x1; let c := abcd.x2; let d := abcd.x3
  let t := msg.x0; let u := msg.x1; let v := msg.x2; let w := msg.x3
  let e : W32 := 0
  let e := e + a.rotateLeft 5 + F b c d + t
  let b := b.rotateLeft 30
  let d := d + e.rotateLeft 5 + F a b c + u
  let a := a.rotateLeft 30
  let c := c + d.rotateLeft 5 + F e a b + v
  let e := e.rotateLeft 30
  let b := b + c.rotateLeft 5 + F d e a + w
  let d := d.rotateLeft 30
  ⟨b, c, d, e⟩

/-- `[K[i]; 4]` -/
def kv (i : Nat) : V4 W32 := ⟨K i, K i, K i, K i⟩

/-- `sha1_digest_round_x4`, soft.rs:49-57 (the index is a literal 0..3 at every call; the `unreachable!`
branch is folded into the last case). -/
def digestRoundX4 (abcd work : V4 W32) (i : Nat) : V4 W32 :=
  match i with
  | 0 => rnds4 bool3ary_202 abcd (add work (kv 0))
  | 1 => rnds4 bool3ary_150 abcd (add work (kv 1))
  | 2 => rnds4 bool3ary_232 abcd (add work (kv 2))
  | _ => rnds4 bool3ary_150 abcd (add work (kv 3))

/-- `rounds4!`, soft.rs:173-177 -/
def rounds4 (h0 h1 wk : V4 W32) (i : Nat) : V4 W32 := digestRoundX4 h0 (firstHalf h1 wk) i

/-- `schedule!`, soft.rs:179-183 -/
def scheduleM (v0 v1 v2 v3 : V4 W32) : V4 W32 := sha1msg2 (xor (sha1msg1 v0 v1) v2) v3

/-- `sha1_digest_block_u32`, soft.rs:197-244; `schedule_rounds4!` (soft.rs:185-194) is
`w4 = schedule!(w0, w1, w2, w3); h1 = rounds4!(h0, h1, w4, i)`. -/
def digestBlockU32 (state : V5 W32) (block : Nat → W32) : V5 W32 :=
  let w0 : V4 W32 := ⟨block 0, block 1, block 2, block 3⟩
  let w1 : V4 W32 := ⟨block 4, block 5, block 6, block 7⟩
  let w2 : V4 W32 := ⟨block 8, block 9, block 10, block 11⟩
  let w3 : V4 W32 := ⟨block 12, block 13, block 14, block 15⟩
  let h0 : V4 W32 := ⟨state.x0, state.x1, state.x2, state.x3⟩
  let h1 := firstAdd state.x4 w0
  let h1 := digestRoundX4 h0 h1 0
  let h0 := rounds4 h1 h0 w1 0
  let h1 := rounds4 h0 h1 w2 0
  let h0 := rounds4 h1 h0 w3 0
  let w4 := scheduleM w0 w1 w2 w3; let h1 := rounds4 h0 h1 w4 0
  let w0 := scheduleM w1 w2 w3 w4; let h0 := rounds4 h1 h0 w0 1
  let w1 := scheduleM w2 w3 w4 w0; let h1 := rounds4 h0 h1 w1 1
  let w2 := scheduleM w3 w4 w0 w1; let h0 := rounds4 h1 h0 w2 1
  let w3 := scheduleM w4 w0 w1 w2; let h1 := rounds4 h0 h1 w3 1
  let w4 := scheduleM w0 w1 w2 w3; let h0 := rounds4 h1 h0 w4 1
  let w0 := scheduleM w1 w2 w3 w4; let h1 := rounds4 h0 h1 w0 2
  let w1 := scheduleM w2 w3 w4 w0; let h0 := rounds4 h1 h0 w1 2
  let w2 := scheduleM w3 w4 w0 w1; let h1 := rounds4 h0 h1 w2 2
  let w3 := scheduleM w4 w0 w1 w2; let h0 := rounds4 h1 h0 w3 2
  let w4 := scheduleM w0 w1 w2 w3; let h1 := rounds4 h0 h1 w4 2
  let w0 := scheduleM w1 w2 w3 w4; let h0 := rounds4 h1 h0 w0 3
  let w1 := scheduleM w2 w3 w4 w0; let h1 := rounds4 h0 h1 w1 3
  let w2 := scheduleM w3 w4 w0 w1; let h0 := rounds4 h1 h0 w2 3
  let w3 := scheduleM w4 w0 w1 w2; let h1 := rounds4 h0 h1 w3 3
  let w4 := scheduleM w0 w1 w2 w3; let h0 := rounds4 h1 h0 w4 3
  let e := h1.x0.rotateLeft 30
  ⟨state.x0 + h0.x0, state.x1 + h0.x1, state.x2 + h0.x2, state.x3 + h0.x3, state.x4 + e⟩

/-- `compress`, soft.rs:246-258. -/
def compressSoft (state : V5 W32) (blks : List Bytes) : V5 W32 :=
  blks.foldl (fun s b => digestBlockU32 s (wordBE 32 b)) state

/-! ### lib.rs -/

/-- `Sha1Core`, lib.rs:41-45. -/
@[ext] structure State where
  h : V5 W32
  blockLen : W64
deriving DecidableEq

/-- `default()`, lib.rs:89-94. -/
def init : State := ⟨H0, 0⟩

/-- `update_blocks`, lib.rs:66-70. -/
def updateBlocks (s : State) (blks : List Bytes) : State :=
  ⟨compressSoft s.h blks, s.blockLen + BitVec.ofNat 64 blks.length⟩

/-- `finalize_fixed_core`, lib.rs:75-84. -/
def finalize (s : State) (buffer : BlockBuffer) : Bytes :=
  let bs : W64 := 64
  let bitLen : W64 := 8 * (BitVec.ofNat 64 buffer.pos + bs * s.blockLen)
  let h := buffer.len64PaddingBE 64 bitLen (fun st b => compressSoft st [b]) s.h
  bytesOfWordsBE h.toList

/-- `serialize`, lib.rs:137-146. -/
def serialize (s : State) : Bytes := bytesOfWordsLE s.h.toList ++ leBytes 8 s.blockLen.toNat

/-- `deserialize`, lib.rs:148-161. -/
def deserialize (raw : Bytes) : Option State :=
  if raw.length = 28 then
    some ⟨V5.ofFn (wordLE 32 raw), BitVec.ofNat 64 (ofLE (raw.drop 20))⟩
  else none

/-- `Sha1 = CoreWrapper<Sha1Core>`, lib.rs:48 (block size :53, `Eager` :57, output :61, reset :97-102,
`SerializedStateSize = U28` :135). -/
def sha1 : Core State Bytes where
  kind := .eager
  bs := 64
  init := init
  updateBlocks := updateBlocks
  finalize := finalize
  reset := fun _ => init
  serialize := serialize
  deserialize := deserialize
  serLen := 28

end Hashes.Sha1
