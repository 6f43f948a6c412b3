import Verif.Props.Blake2
import Verif.Props.Tiger
import Verif.Proof.Blake2Simd
import Verif.Model.TigerBin
/- C53: digests do not depend on the byte order of the target. C54: the vector code of blake2 is the lane-wise code. -/
namespace Hashes
open Blake2

/-! ### C53 -/

namespace Blake2.Simd

theorem core_on {n : Nat} {c : Cfg (8 * n)} {V : Spec.Blake2.Variant (8 * n)} (g : Good n c V) {o : Ops (8 * n)} (p : o.Plain c)
    (out : Nat) (l : List Bytes) (hd : ∀ k ≤ l.flatten.length, CountOk c k) :
    (8 * n < out ∧ (varCore o c).ct out = none) ∨
    (out ≤ 8 * n ∧ ∃ d, (varCore o c).ct out = some d ∧
      d.finish (d.updates d.new l) = Spec.Blake2.hash V out [] [] [] l.flatten) := by
  have e8 : 8 * n / 8 = n := by omega
  rcases core_some g out with ⟨h, -⟩ | ⟨h, s, hs, -⟩
  · refine .inl ⟨h, ?_⟩
    simp only [VarCore.ct, varCore, g.hb]
    rw [if_neg (by omega)]
  · refine .inr ⟨h, (varCore o c).ctWith out s, ?_, ?_⟩
    · simp only [VarCore.ct, varCore, g.hb]
      rw [if_pos h, new, g.hb, if_neg (by omega), hs]
      rfl
    · rw [digest_eq (by omega) p (by rw [e8]; exact g.hbs) (g.lawful.ct out s)]
      exact hash_of_chunks g hs l hd

theorem wf_block {n : Nat} {c : Cfg (8 * n)} {V : Spec.Blake2.Variant (8 * n)} (g : Good n c V) {k : Bytes} (hk : k.length ≤ c.bytes) :
    (bufferOf (padded c.blockSize k)).WF .lazy c.blockSize ∧ (padded c.bytes k).length ≤ c.blockSize := by
  have hb := g.hb; have hbs := g.hbs
  have h1 : (padded c.blockSize k).length = c.blockSize := by
    rw [padded, length_overwrite (by simp; omega), List.length_replicate]
  have h2 : (padded c.bytes k).length = c.bytes := by
    rw [padded, length_overwrite (by simpa using hk), List.length_replicate]
  exact ⟨⟨h1, by simp only [bufferOf]; omega⟩, by omega⟩

theorem mac_on {n : Nat} {c : Cfg (8 * n)} {V : Spec.Blake2.Variant (8 * n)} (g : Good n c V) {o : Ops (8 * n)} (p : o.Plain c)
    {out : Nat} {key : Option Bytes} {salt persona : Bytes} {m : Mac (8 * n)}
    (h : newWithSaltAndPersonal c out key salt persona = .ok m) (ops : List MacOp) :
    macRun o c out m ops = m.run c out ops := by
  have e8 : 8 * n / 8 = n := by omega
  have h4 := g.h4
  obtain ⟨s0, -, hk, hm⟩ := newSalt_ok g h
  refine macRun_eq (by omega) (by omega) p (by rw [e8]; exact g.hbs) out ops m ?_ ?_
  · rcases hm with ⟨-, rfl⟩ | ⟨k, rfl, -, rfl⟩
    · exact ⟨by simp [BlockBuffer.empty], by simp [BlockBuffer.empty]⟩
    · exact (wf_block g hk).1
  · rcases hm with ⟨-, rfl⟩ | ⟨k, rfl, -, rfl⟩
    · intro k hk'; cases hk'
    · intro k' hk'; cases hk'; exact (wf_block g hk).2

theorem slice_on {n : Nat} {c : Cfg (8 * n)} {V : Spec.Blake2.Variant (8 * n)} (g : Good n c V) {o : Ops (8 * n)} (p : o.Plain c)
    {out : Nat} {key : Bytes} {m : Mac (8 * n)} (h : newFromSlice c out key = .ok m) (ops : List MacOp) :
    macRun o c out m ops = m.run c out ops := by
  have e8 : 8 * n / 8 = n := by omega
  have h4 := g.h4
  obtain ⟨s0, -, hk, rfl⟩ := newFromSlice_ok g h
  refine macRun_eq (by omega) (by omega) p (by rw [e8]; exact g.hbs) out ops _ (wf_block g hk).1 ?_
  intro k' hk'; cases hk'; exact (wf_block g hk).2

end Blake2.Simd

open Blake2.Simd

/-- C53. `Blake2b<N>` built for any target (byte order, features, instruction set): the digest is the one of RFC 7693. -/
theorem C53_blake2b (t : Target) (ht : t.Valid) (out : Nat) (l : List Bytes) (hl : l.flatten.length < 2 ^ 64) :
    (64 < out ∧ (Simd.varCore (ops64 t) cfgB).ct out = none) ∨
    (out ≤ 64 ∧ ∃ d, (Simd.varCore (ops64 t) cfgB).ct out = some d ∧
      d.finish (d.updates d.new l) = Spec.Blake2.hash Spec.Blake2.b out [] [] [] l.flatten) :=
  core_on goodB (plain64 ht) out l fun k hk => countB (by omega)

/-- C53. `Blake2s<N>`, as above. -/
theorem C53_blake2s (t : Target) (ht : t.Valid) (out : Nat) (l : List Bytes) :
    (32 < out ∧ (Simd.varCore (ops32 t) cfgS).ct out = none) ∨
    (out ≤ 32 ∧ ∃ d, (Simd.varCore (ops32 t) cfgS).ct out = some d ∧
      d.finish (d.updates d.new l) = Spec.Blake2.hash Spec.Blake2.s out [] [] [] l.flatten) :=
  core_on goodS (plain32 ht) out l fun k _ => countS k

/-- C53. The MACs, driven by any sequence of calls on any target: every tag is that of RFC 7693. -/
theorem C53_mac (t : Target) (ht : t.Valid) (out : Nat) (key : Option Bytes) (salt persona : Bytes) (ops : List MacOp)
    (hl : ∀ x ∈ Spec.macMessages [] ops, x.length + 128 < 2 ^ 64) :
    (∀ m, newWithSaltAndPersonal cfgB out key salt persona = .ok m → macRun (ops64 t) cfgB out m ops =
      (Spec.macMessages [] ops).map (Spec.Blake2.hash Spec.Blake2.b out (key.getD []) salt persona)) ∧
    (∀ m, newWithSaltAndPersonal cfgS out key salt persona = .ok m → macRun (ops32 t) cfgS out m ops =
      (Spec.macMessages [] ops).map (Spec.Blake2.hash Spec.Blake2.s out (key.getD []) salt persona)) :=
  ⟨fun m h => (mac_on goodB (plain64 ht) h ops).trans (C25_blake2bMac out key salt persona m h ops hl),
   fun m h => (mac_on goodS (plain32 ht) h ops).trans (C25_blake2sMac out key salt persona m h ops)⟩

/-- C53. The same for MACs built by `new_from_slice` with a non-empty key. -/
theorem C53_newFromSlice (t : Target) (ht : t.Valid) (out : Nat) (key : Bytes) (hne : key ≠ []) (ops : List MacOp)
    (hl : ∀ x ∈ Spec.macMessages [] ops, x.length + 128 < 2 ^ 64) :
    (∀ m, newFromSlice cfgB out key = .ok m → macRun (ops64 t) cfgB out m ops =
      (Spec.macMessages [] ops).map (Spec.Blake2.hash Spec.Blake2.b out key [] [])) ∧
    (∀ m, newFromSlice cfgS out key = .ok m → macRun (ops32 t) cfgS out m ops =
      (Spec.macMessages [] ops).map (Spec.Blake2.hash Spec.Blake2.s out key [] [])) :=
  ⟨fun m h => (slice_on goodB (plain64 ht) h ops).trans ((C25_newFromSlice out key hne ops hl).1 m h),
   fun m h => (slice_on goodS (plain32 ht) h ops).trans ((C25_newFromSlice out key hne ops hl).2 m h)⟩

theorem Tiger.chunks_map {α β : Type} (f : α → β) (n : Nat) (l : List α) : chunks n (l.map f) = (chunks n l).map (List.map f) := by
  have : ∀ k (l : List α), blocks n k (l.map f) = (blocks n k l).map (List.map f) := by
    intro k
    induction k with
    | zero => intro l; rfl
    | succ k ih => intro l; simp only [blocks, List.map_cons, ← List.map_drop, ← List.map_take, ih]
  rw [chunks, List.length_map, this, chunks]

/-- C53. Byte-swapping the words of any file on a big-endian target gives the tables a little-endian target reads. -/
theorem C53_tables_swap (file : Bytes) : Tiger.tablesOf .big file = Tiger.tablesOf .little file := by
  simp only [Tiger.tablesOf, Tiger.transmuteTables, ← Tiger.chunks_map, List.map_map]
  congr 1
  refine List.map_congr_left fun c hc => ?_
  exact Simd.wordLe_ofNe (w := 64) (by decide) .big (length_of_mem_chunks hc)

theorem Tiger.tables_little : Tiger.tablesOf .little Tiger.tablesBin = Tiger.TABLES := by decide +kernel

/-- C53. On either kind of target the tables read from tables.bin are the designers' S-boxes. -/
theorem C53_tables (e : Endian) : ∀ k < 4, ∀ v < 256, ((Tiger.tablesOf e Tiger.tablesBin).getD k []).getD v 0 = Spec.Tiger.Gen.sbox k v := by
  have h : Tiger.tablesOf e Tiger.tablesBin = Tiger.TABLES := by
    cases e
    · exact Tiger.tables_little
    · rw [C53_tables_swap]; exact Tiger.tables_little
  rw [h]; exact C39_tables

/-- C53. Tiger and Tiger2 on either kind of target. -/
theorem C53_tiger (e : Endian) (l : List Bytes) :
    (Tiger.coreOn e false).finish ((Tiger.coreOn e false).updates (Tiger.coreOn e false).new l) =
      Spec.Tiger.hash Spec.Tiger.Gen.sbox 0x01 l.flatten ∧
    (Tiger.coreOn e true).finish ((Tiger.coreOn e true).updates (Tiger.coreOn e true).new l) =
      Spec.Tiger.hash Spec.Tiger.Gen.sbox 0x80 l.flatten := by
  have h : Tiger.tablesOf e Tiger.tablesBin = Tiger.TABLES := by
    cases e
    · exact Tiger.tables_little
    · rw [C53_tables_swap]; exact Tiger.tables_little
  rw [Tiger.coreOn, Tiger.coreOn, h]
  exact ⟨C39_tiger l, C39_tiger2 l⟩

/-- A big-endian target without vector features. -/
def Blake2.Simd.bigPlain : Target := ⟨.big, false, false, false, false, false, false⟩

/-- Concrete cases: BLAKE2b-512("abc") and BLAKE2s-256("abc") on a big-endian target; the block words there are read the other
way round, and so differ before `from_le`. -/
example : (((Simd.varCore (ops64 bigPlain) cfgB).ct 64).map fun c => (c.finish (c.updates c.new [[0x61], [0x62, 0x63]])).take 8) =
    some [0xba, 0x80, 0xa5, 0x3f, 0x98, 0x1c, 0x4d, 0x0d] := by decide +kernel
example : (((Simd.varCore (ops32 bigPlain) cfgS).ct 32).map fun c => (c.finish (c.updates c.new [[0x61], [0x62, 0x63]])).take 8) =
    some [0x50, 0x8c, 0x5e, 0x8c, 0x32, 0x7c, 0x14, 0xe2] := by decide +kernel
example : wordNe .big 32 [1, 2, 3, 4] 0 = 0x01020304 ∧ wordNe .little 32 [1, 2, 3, 4] 0 = 0x04030201 := by decide

/-! ### C54 -/

/-- C54. `rotate_right_const` of `u32x4`, whichever implementation the build selects, rotates every lane. -/
theorem C54_rotate32 (t : Target) (ht : t.Valid) (a b c d : W32) (n : Nat) (h0 : 0 < n) (hn : n < 32) :
    rotateRightConst32 t ⟨a, b, c, d⟩ n = ⟨a.rotateRight n, b.rotateRight n, c.rotateRight n, d.rotateRight n⟩ :=
  const32 ht _ h0 hn

/-- C54. `rotate_right_const` of `u64x4`. -/
theorem C54_rotate64 (t : Target) (ht : t.Valid) (a b c d : W64) (n : Nat) (h0 : 0 < n) (hn : n < 64) :
    rotateRightConst64 t ⟨a, b, c, d⟩ n = ⟨a.rotateRight n, b.rotateRight n, c.rotateRight n, d.rotateRight n⟩ :=
  const64 ht _ h0 hn

/-- C54. `shuffle_left_1..3` with and without the vector intrinsics rotate the order of the lanes. -/
theorem C54_shuffle {w : Nat} (t : Target) (a b c d : BitVec w) :
    shuffleLeft1 t ⟨a, b, c, d⟩ = ⟨b, c, d, a⟩ ∧ shuffleLeft2 t ⟨a, b, c, d⟩ = ⟨c, d, a, b⟩ ∧
      shuffleLeft3 t ⟨a, b, c, d⟩ = ⟨d, a, b, c⟩ :=
  ⟨left1_eq t _, left2_eq t _, left3_eq t _⟩

/-- C54. On whole blocks the compression function is the same on every target. -/
theorem C54_compress (t : Target) (ht : t.Valid) (k : W64) (b : Bytes) :
    (b.length = 128 → ∀ h f0 f1, Simd.compress (ops64 t) cfgB h k b f0 f1 = Blake2.compress cfgB h k b f0 f1) ∧
    (b.length = 64 → ∀ h f0 f1, Simd.compress (ops32 t) cfgS h k b f0 f1 = Blake2.compress cfgS h k b f0 f1) :=
  ⟨fun hb h f0 f1 => compress_eq (by decide) (plain64 ht) hb h k f0 f1,
   fun hb h f0 f1 => compress_eq (by decide) (plain32 ht) hb h k f0 f1⟩

/-- Concrete cases: the byte shuffle of SSSE3 and the `vext` of ARM rotate; on a big-endian target the byte shuffle would rotate
the other way, which is why `Valid` asks for little-endian there. -/
example : rotateRightConst32 ⟨.little, true, true, true, true, false, false⟩ ⟨0x01020304, 5, 6, 7⟩ 8 = ⟨0x04010203, 0x05000000, 0x06000000, 0x07000000⟩ := by
  decide +kernel
example : rotateRightConst64 ⟨.big, true, true, false, false, true, true⟩ ⟨0x0102030405060708, 5, 6, 7⟩ 24 =
    ⟨0x0607080102030405, 0x50000000000, 0x60000000000, 0x70000000000⟩ := by
  decide +kernel
example : rotateRightConst32 ⟨.big, true, true, true, true, false, false⟩ ⟨0x01020304, 5, 6, 7⟩ 8 = ⟨0x02030401, 0x500, 0x600, 0x700⟩ := by
  decide +kernel

end Hashes
