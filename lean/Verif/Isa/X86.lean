import Verif.Base.Simd
/-
Semantics of the x86 intrinsics used by /repo/sha1/src/compress/x86.rs, /repo/sha2/src/sha256/x86_shani.rs and
/repo/sha2/src/sha512/x86_avx2.rs, transcribed from the "Operation" sections of the Intel 64 and IA-32
Architectures Software Developer's Manual, vol. 2 (instruction named in each comment).  These definitions are
part of the trusted base: nothing in /repo defines them.  They are written without reference to FIPS 180-4.
In the manual `x[31:0]` is lane 0, `x[127:96]` lane 3.
-/
namespace Hashes.X86
open Simd

/-- `_mm_set_epi32(e3, e2, e1, e0)` -/
def mm_set_epi32 (e3 e2 e1 e0 : W32) : V128 := pack 32 fun i => (⟨e0, e1, e2, e3⟩ : V4 W32).get i
/-- `_mm_set_epi64x(e1, e0)` -/
def mm_set_epi64x (e1 e0 : W64) : V128 := pack 64 fun i => if i = 0 then e0 else e1
/-- PADDD -/
def mm_add_epi32 (a b : V128) : V128 := zip 32 (· + ·) a b
/-- PADDQ -/
def mm_add_epi64 (a b : V128) : V128 := zip 64 (· + ·) a b
/-- PXOR -/
def mm_xor_si128 (a b : V128) : V128 := a ^^^ b
/-- PSHUFD: destination lane `i` is source lane `imm[2i+1:2i]`. -/
def mm_shuffle_epi32 (a : V128) (imm : Nat) : V128 := pack 32 fun i => lane 32 (imm / 4 ^ i % 4) a
/-- PSHUFB: destination byte `i` is zero if bit 7 of mask byte `i` is set, else source byte `mask[i] & 15`. -/
def mm_shuffle_epi8 (a m : V128) : V128 :=
  pack 8 fun i => if (lane 8 i m).getLsbD 7 then 0 else lane 8 ((lane 8 i m).toNat % 16) a
/-- PALIGNR: the low 16 bytes of `(a : b) >> (8 * n)`. -/
def mm_alignr_epi8 (a b : V128) (n : Nat) : V128 :=
  pack 8 fun i => if n + i < 16 then lane 8 (n + i) b else if n + i < 32 then lane 8 (n + i - 16) a else 0
/-- PBLENDW: 16-bit lane `i` comes from `b` if bit `i` of `imm` is set, else from `a`. -/
def mm_blend_epi16 (a b : V128) (imm : Nat) : V128 :=
  pack 16 fun i => if imm.testBit i then lane 16 i b else lane 16 i a
/-- PEXTRD -/
def mm_extract_epi32 (a : V128) (i : Nat) : W32 := lane 32 (i % 4) a
/-- PSRLQ (immediate below 64) -/
def mm_srli_epi64 (a : V128) (n : Nat) : V128 := map 64 (fun x => x >>> n) a
/-- PSLLQ (immediate below 64) -/
def mm_slli_epi64 (a : V128) (n : Nat) : V128 := map 64 (fun x => x <<< n) a

/-! ### SHA extensions -/

/-- `f` of SHA1RNDS4: `f0` = (B AND C) XOR ((NOT B) AND D), `f1` = B XOR C XOR D,
`f2` = (B AND C) XOR (B AND D) XOR (C AND D), `f3` = B XOR C XOR D. -/
def sha1f (imm : Nat) (b c d : W32) : W32 :=
  match imm with
  | 0 => (b &&& c) ^^^ (~~~b &&& d)
  | 1 => b ^^^ c ^^^ d
  | 2 => (b &&& c) ^^^ (b &&& d) ^^^ (c &&& d)
  | _ => b ^^^ c ^^^ d

/-- `K` of SHA1RNDS4. -/
def sha1k (imm : Nat) : W32 :=
  match imm with
  | 0 => 0x5A827999 | 1 => 0x6ED9EBA1 | 2 => 0x8F1BBCDC | _ => 0xCA62C1D6

/-- SHA1RNDS4: four rounds of SHA1; the first message operand already contains `E`. -/
def mm_sha1rnds4_epu32 (src1 src2 : V128) (imm : Nat) : V128 :=
  let a := lane 32 3 src1; let b := lane 32 2 src1; let c := lane 32 1 src1; let d := lane 32 0 src1
  let w0e := lane 32 3 src2; let w1 := lane 32 2 src2; let w2 := lane 32 1 src2; let w3 := lane 32 0 src2
  let f := sha1f imm; let k := sha1k imm
  let a1 := f b c d + a.rotateLeft 5 + w0e + k
  let b1 := a; let c1 := b.rotateLeft 30; let d1 := c; let e1 := d
  let a2 := f b1 c1 d1 + a1.rotateLeft 5 + w1 + e1 + k
  let b2 := a1; let c2 := b1.rotateLeft 30; let d2 := c1; let e2 := d1
  let a3 := f b2 c2 d2 + a2.rotateLeft 5 + w2 + e2 + k
  let b3 := a2; let c3 := b2.rotateLeft 30; let d3 := c2; let e3 := d2
  let a4 := f b3 c3 d3 + a3.rotateLeft 5 + w3 + e3 + k
  let b4 := a3; let c4 := b3.rotateLeft 30; let d4 := c3
  mm_set_epi32 a4 b4 c4 d4

/-- SHA1NEXTE: `DEST[127:96] = SRC2[127:96] + (SRC1[127:96] ROL 30)`, the rest from `SRC2`. -/
def mm_sha1nexte_epu32 (src1 src2 : V128) : V128 :=
  mm_set_epi32 (lane 32 3 src2 + (lane 32 3 src1).rotateLeft 30) (lane 32 2 src2) (lane 32 1 src2) (lane 32 0 src2)

/-- SHA1MSG1 -/
def mm_sha1msg1_epu32 (src1 src2 : V128) : V128 :=
  let w0 := lane 32 3 src1; let w1 := lane 32 2 src1; let w2 := lane 32 1 src1; let w3 := lane 32 0 src1
  let w4 := lane 32 3 src2; let w5 := lane 32 2 src2
  mm_set_epi32 (w2 ^^^ w0) (w3 ^^^ w1) (w4 ^^^ w2) (w5 ^^^ w3)

/-- SHA1MSG2 -/
def mm_sha1msg2_epu32 (src1 src2 : V128) : V128 :=
  let w13 := lane 32 2 src2; let w14 := lane 32 1 src2; let w15 := lane 32 0 src2
  let w16 := (lane 32 3 src1 ^^^ w13).rotateLeft 1
  let w17 := (lane 32 2 src1 ^^^ w14).rotateLeft 1
  let w18 := (lane 32 1 src1 ^^^ w15).rotateLeft 1
  let w19 := (lane 32 0 src1 ^^^ w16).rotateLeft 1
  mm_set_epi32 w16 w17 w18 w19

/-- `Ch`, `Maj`, `Σ0`, `Σ1`, `σ0`, `σ1` as the manual defines them for SHA256RNDS2, SHA256MSG1, SHA256MSG2. -/
def ch (e f g : W32) : W32 := (e &&& f) ^^^ (~~~e &&& g)
def maj (a b c : W32) : W32 := (a &&& b) ^^^ (a &&& c) ^^^ (b &&& c)
def sum0 (a : W32) : W32 := a.rotateRight 2 ^^^ a.rotateRight 13 ^^^ a.rotateRight 22
def sum1 (e : W32) : W32 := e.rotateRight 6 ^^^ e.rotateRight 11 ^^^ e.rotateRight 25
def sig0 (w : W32) : W32 := w.rotateRight 7 ^^^ w.rotateRight 18 ^^^ w >>> 3
def sig1 (w : W32) : W32 := w.rotateRight 17 ^^^ w.rotateRight 19 ^^^ w >>> 10

/-- SHA256RNDS2 (`k` is the implicit XMM0 operand): two rounds; `A, B, E, F` are in `src2`, `C, D, G, H` in `src1`. -/
def mm_sha256rnds2_epu32 (src1 src2 k : V128) : V128 :=
  let a0 := lane 32 3 src2; let b0 := lane 32 2 src2; let c0 := lane 32 3 src1; let d0 := lane 32 2 src1
  let e0 := lane 32 1 src2; let f0 := lane 32 0 src2; let g0 := lane 32 1 src1; let h0 := lane 32 0 src1
  let wk0 := lane 32 0 k; let wk1 := lane 32 1 k
  let a1 := ch e0 f0 g0 + sum1 e0 + wk0 + h0 + maj a0 b0 c0 + sum0 a0
  let b1 := a0; let c1 := b0; let d1 := c0
  let e1 := ch e0 f0 g0 + sum1 e0 + wk0 + h0 + d0
  let f1 := e0; let g1 := f0; let h1 := g0
  let a2 := ch e1 f1 g1 + sum1 e1 + wk1 + h1 + maj a1 b1 c1 + sum0 a1
  let b2 := a1
  let e2 := ch e1 f1 g1 + sum1 e1 + wk1 + h1 + d1
  let f2 := e1
  mm_set_epi32 a2 b2 e2 f2

/-- SHA256MSG1 -/
def mm_sha256msg1_epu32 (src1 src2 : V128) : V128 :=
  let w4 := lane 32 0 src2
  let w3 := lane 32 3 src1; let w2 := lane 32 2 src1; let w1 := lane 32 1 src1; let w0 := lane 32 0 src1
  mm_set_epi32 (w3 + sig0 w4) (w2 + sig0 w3) (w1 + sig0 w2) (w0 + sig0 w1)

/-- SHA256MSG2 -/
def mm_sha256msg2_epu32 (src1 src2 : V128) : V128 :=
  let w14 := lane 32 2 src2; let w15 := lane 32 3 src2
  let w16 := lane 32 0 src1 + sig1 w14
  let w17 := lane 32 1 src1 + sig1 w15
  let w18 := lane 32 2 src1 + sig1 w16
  let w19 := lane 32 3 src1 + sig1 w17
  mm_set_epi32 w19 w18 w17 w16

end Hashes.X86
