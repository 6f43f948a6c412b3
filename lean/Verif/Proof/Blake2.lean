import Verif.Proof.Md
import Verif.Model.Blake2
import Verif.Spec.Blake2
/- BLAKE2: the row/diagonal code equals the RFC 7693 mixing, and the message-level refinement. -/
namespace Hashes.Blake2
variable {w : Nat}

/-- The model's configuration and the specification's variant agree. -/
structure Match (c : Cfg w) (V : Spec.Blake2.Variant w) : Prop where
  bb : c.blockSize = V.bb
  R1 : c.R1 = V.R1
  R2 : c.R2 = V.R2
  R3 : c.R3 = V.R3
  R4 : c.R4 = V.R4
  IV : c.IV.toList = V.IV

theorem matchB : Match cfgB Spec.Blake2.b := ⟨rfl, rfl, rfl, rfl, rfl, rfl⟩
theorem matchS : Match cfgS Spec.Blake2.s := ⟨rfl, rfl, rfl, rfl, rfl, rfl⟩

/-- The four words G produces. -/
def gq (V : Spec.Blake2.Variant w) (a b c d x y : BitVec w) : V4 (BitVec w) :=
  let va := a + b + x
  let vd := (d ^^^ va).rotateRight V.R1
  let vc := c + vd
  let vb := (b ^^^ vc).rotateRight V.R2
  let va := va + vb + y
  let vd := (vd ^^^ va).rotateRight V.R3
  let vc := vc + vd
  let vb := (vb ^^^ vc).rotateRight V.R4
  ⟨va, vb, vc, vd⟩

theorem G_eq (V : Spec.Blake2.Variant w) (v : List (BitVec w)) (a b c d : Nat) (x y : BitVec w) :
    Spec.Blake2.G V v a b c d x y =
      let q := gq V (v.getD a 0) (v.getD b 0) (v.getD c 0) (v.getD d 0) x y
      (((v.set a q.x0).set b q.x1).set c q.x2).set d q.x3 := rfl

/-- Rows as one list of 16 words. -/
def flat (v : V4 (Vec w)) : List (BitVec w) := v.x0.toList ++ v.x1.toList ++ v.x2.toList ++ v.x3.toList

theorem quarter_eq {c : Cfg w} {V : Spec.Blake2.Variant w} (M : Match c V) (v : V4 (Vec w)) (x y : Vec w) :
    quarterRound (quarterRound v c.R1 c.R2 x) c.R3 c.R4 y =
      let q0 := gq V v.x0.x0 v.x1.x0 v.x2.x0 v.x3.x0 x.x0 y.x0
      let q1 := gq V v.x0.x1 v.x1.x1 v.x2.x1 v.x3.x1 x.x1 y.x1
      let q2 := gq V v.x0.x2 v.x1.x2 v.x2.x2 v.x3.x2 x.x2 y.x2
      let q3 := gq V v.x0.x3 v.x1.x3 v.x2.x3 v.x3.x3 x.x3 y.x3
      ⟨⟨q0.x0, q1.x0, q2.x0, q3.x0⟩, ⟨q0.x1, q1.x1, q2.x1, q3.x1⟩, ⟨q0.x2, q1.x2, q2.x2, q3.x2⟩,
        ⟨q0.x3, q1.x3, q2.x3, q3.x3⟩⟩ := by
  rw [M.R1, M.R2, M.R3, M.R4]; rfl

/-- One round of the code is one round of RFC 7693. -/
theorem round_eq {c : Cfg w} {V : Spec.Blake2.Variant w} (M : Match c V) (m : Nat → BitVec w) (s : List Nat)
    (v : V4 (Vec w)) : flat (round c m s v) = Spec.Blake2.round V m s (flat v) := by
  obtain ⟨⟨a0, a1, a2, a3⟩, ⟨b0, b1, b2, b3⟩, ⟨c0, c1, c2, c3⟩, ⟨d0, d1, d2, d3⟩⟩ := v
  simp only [round, quarter_eq M, Spec.Blake2.round, G_eq, flat, V4.toList, gather, shuffle, unshuffle,
    Vec.shuffleLeft1, Vec.shuffleLeft2, Vec.shuffleLeft3, Vec.shuffleRight1, Vec.shuffleRight2, Vec.shuffleRight3,
    List.cons_append, List.nil_append, List.set_cons_zero, List.set_cons_succ, List.getD_cons_zero, List.getD_cons_succ]

theorem sigma_eq : ∀ i < 12, sigma i = Spec.Blake2.SIGMA.getD (i % 10) [] := by decide

/-- The counter words the code uses are those of RFC 7693 for the byte count `n`. -/
structure CountOk (c : Cfg w) (n : Nat) : Prop where
  lo : (BitVec.ofNat 64 n).setWidth w = BitVec.ofNat w n
  hi : (if c.bytes = 64 then (0 : BitVec w) else ((BitVec.ofNat 64 n) >>> 32).setWidth w) = BitVec.ofNat w (n / 2 ^ w)

theorem countB {n : Nat} (h : n < 2 ^ 64) : CountOk cfgB n where
  lo := by simp
  hi := by rw [if_pos (by rfl), Nat.div_eq_of_lt h]; rfl

theorem countS (n : Nat) : CountOk cfgS n where
  lo := by
    apply BitVec.eq_of_toNat_eq
    simp only [BitVec.toNat_setWidth, BitVec.toNat_ofNat]
    omega
  hi := by
    rw [if_neg (by decide)]
    apply BitVec.eq_of_toNat_eq
    simp only [BitVec.toNat_setWidth, BitVec.toNat_ushiftRight, BitVec.toNat_ofNat, Nat.shiftRight_eq_div_pow]
    omega

/-- The number of rounds the code performs. -/
structure Rounds (c : Cfg w) (V : Spec.Blake2.Variant w) : Prop where
  r : V.r = if c.bytes = 64 then 12 else 10

/-- The eight chaining words as a list. -/
def hl (h : V2 (Vec w)) : List (BitVec w) := h.x0.toList ++ h.x1.toList

theorem compress_eq {c : Cfg w} {V : Spec.Blake2.Variant w} (M : Match c V) (hr : Rounds c V) (h : V2 (Vec w)) {n : Nat}
    (hn : CountOk c n) (block : Bytes) (f : Bool) :
    hl (compress c h (BitVec.ofNat 64 n) block (if f then BitVec.allOnes w else 0) 0) =
      Spec.Blake2.F V (hl h) block n f := by
  simp only [compress, Spec.Blake2.F, hn.lo, hn.hi]
  have hv : flat ⟨h.x0, h.x1, c.iv0, c.iv1.xor ⟨BitVec.ofNat w n, BitVec.ofNat w (n / 2 ^ w),
      if f then BitVec.allOnes w else 0, 0⟩⟩ =
    (if f then ((((hl h ++ V.IV).set 12 ((hl h ++ V.IV).getD 12 0 ^^^ BitVec.ofNat w n)).set 13
      ((((hl h ++ V.IV).set 12 ((hl h ++ V.IV).getD 12 0 ^^^ BitVec.ofNat w n)).getD 13 0) ^^^
        BitVec.ofNat w (n / 2 ^ w))).set 14
        ((((hl h ++ V.IV).set 12 ((hl h ++ V.IV).getD 12 0 ^^^ BitVec.ofNat w n)).set 13
      ((((hl h ++ V.IV).set 12 ((hl h ++ V.IV).getD 12 0 ^^^ BitVec.ofNat w n)).getD 13 0) ^^^
        BitVec.ofNat w (n / 2 ^ w))).getD 14 0 ^^^ BitVec.allOnes w)) else
       (((hl h ++ V.IV).set 12 ((hl h ++ V.IV).getD 12 0 ^^^ BitVec.ofNat w n)).set 13
      ((((hl h ++ V.IV).set 12 ((hl h ++ V.IV).getD 12 0 ^^^ BitVec.ofNat w n)).getD 13 0) ^^^
        BitVec.ofNat w (n / 2 ^ w)))) := by
    obtain ⟨⟨a0, a1, a2, a3⟩, ⟨b0, b1, b2, b3⟩⟩ := h
    rw [← M.IV]
    cases f <;>
    simp [flat, hl, V4.toList, V8.toList, Cfg.iv0, Cfg.iv1, Vec.xor, V4.zip]
  rw [← hv]
  generalize (⟨h.x0, h.x1, c.iv0, c.iv1.xor ⟨BitVec.ofNat w n, BitVec.ofNat w (n / 2 ^ w),
      if f then BitVec.allOnes w else 0, 0⟩⟩ : V4 (Vec w)) = v
  have key : ∀ u : V4 (Vec w), hl ⟨h.x0.xor (u.x0.xor u.x2), h.x1.xor (u.x1.xor u.x3)⟩ =
      (List.range 8).map fun i => (hl h).getD i 0 ^^^ (flat u).getD i 0 ^^^ (flat u).getD (i + 8) 0 := by
    intro u
    obtain ⟨⟨a0, a1, a2, a3⟩, ⟨b0, b1, b2, b3⟩⟩ := h
    obtain ⟨⟨e0, e1, e2, e3⟩, ⟨f0, f1, f2, f3⟩, ⟨g0, g1, g2, g3⟩, ⟨i0, i1, i2, i3⟩⟩ := u
    simp [hl, flat, V4.toList, Vec.xor, V4.zip, List.range, List.range.loop, BitVec.xor_assoc]
  have s := sigma_eq
  rw [key, hr.r]
  by_cases hb : c.bytes = 64
  · simp only [if_pos hb, List.range, List.range.loop, List.foldl_cons, List.foldl_nil, round_eq M, s 0 (by decide),
      s 1 (by decide), s 2 (by decide), s 3 (by decide), s 4 (by decide), s 5 (by decide), s 6 (by decide), s 7 (by decide),
      s 8 (by decide), s 9 (by decide), Nat.reduceMod]
  · simp only [if_neg hb, List.range, List.range.loop, List.foldl_cons, List.foldl_nil, round_eq M, s 0 (by decide),
      s 1 (by decide), s 2 (by decide), s 3 (by decide), s 4 (by decide), s 5 (by decide), s 6 (by decide), s 7 (by decide),
      s 8 (by decide), s 9 (by decide)]

/-! ### Message level -/

theorem lawful (c : Cfg w) (h0 : 0 < c.blockSize) : (varCore c).Lawful where
  bs_pos := h0
  nil := fun s => rfl
  app := fun s x y => by simp [varCore, updateBlocks]
  fin_congr := fun s b b' h h' hc => by
    simp only [varCore, finalizeFull, BlockBuffer.padWithZeros]
    have := pos_congr h h' hc
    simp only [BlockBuffer.content] at hc
    rw [this] at hc ⊢
    rw [hc]

theorem update_spec {c : Cfg w} {V : Spec.Blake2.Variant w} (M : Match c V) (hr : Rounds c V) (s : State w) (ht : s.t = 0)
    (d : Bytes) (hd : ∀ n ≤ d.length, CountOk c n) (k : Nat) (hk : k * c.blockSize ≤ d.length) :
    let s' := updateBlocks c s (blocks c.blockSize k d)
    s'.t = BitVec.ofNat 64 (k * c.blockSize) ∧ s'.h0 = s.h0 ∧
    hl s'.h = (List.range k).foldl (fun h i =>
      Spec.Blake2.F V h ((d.drop (i * V.bb)).take V.bb) ((i + 1) * V.bb) false) (hl s.h) := by
  induction k with
  | zero => exact ⟨by simpa [updateBlocks, blocks] using ht, rfl, rfl⟩
  | succ k ih =>
    have hk' : (k + 1) * c.blockSize = k * c.blockSize + c.blockSize := Nat.succ_mul ..
    obtain ⟨h1, h2, h3⟩ := ih (by omega)
    rw [blocks_add]
    simp only [blocks, updateBlocks, List.foldl_append, List.foldl_cons, List.foldl_nil]
    rw [show (blocks c.blockSize k d).foldl _ s = updateBlocks c s (blocks c.blockSize k d) from rfl]
    have hl' : ((d.drop (k * c.blockSize)).take c.blockSize).length = c.blockSize := by
      simp only [List.length_take, List.length_drop]; omega
    have ht' : (updateBlocks c s (blocks c.blockSize k d)).t +
        BitVec.ofNat 64 ((d.drop (k * c.blockSize)).take c.blockSize).length = BitVec.ofNat 64 ((k + 1) * c.blockSize) := by
      rw [h1, hl', ← BitVec.ofNat_add, hk']
    refine ⟨ht', h2, ?_⟩
    rw [ht', List.range_succ, List.foldl_append, ← h3, List.foldl_cons, List.foldl_nil, ← M.bb]
    exact compress_eq M hr _ (hd _ (by omega)) _ false

theorem finish_spec {c : Cfg w} {V : Spec.Blake2.Variant w} (M : Match c V) (hr : Rounds c V) {n : Nat} {s : State w}
    (ht : s.t = 0) {h : Hasher (State w)} {d : Bytes} (r : ((varCore c).ctWith n s).Rep h d)
    (hd : ∀ n ≤ d.length, CountOk c n) :
    finalizeFull c h.core h.buf = bytesOfWordsLE (Spec.Blake2.process V (hl s.h) d) := by
  obtain ⟨wf, hc, hb⟩ := r
  simp only [VarCore.ctWith, varCore, nFull] at wf hc hb
  have hpos : h.buf.pos = d.length - (d.length - 1) / c.blockSize * c.blockSize := by
    rw [← wf.length_content, hb]; simp
  have hle : (d.length - 1) / c.blockSize * c.blockSize ≤ d.length := by
    have := Nat.div_mul_le_self (d.length - 1) c.blockSize; omega
  obtain ⟨h1, -, h3⟩ := update_spec M hr s ht d hd ((d.length - 1) / c.blockSize) hle
  simp only [finalizeFull, BlockBuffer.padWithZeros, Spec.Blake2.process]
  rw [hc, h1, hpos, ← BitVec.ofNat_add, Nat.add_sub_cancel' hle, ← M.bb]
  rw [← M.bb] at h3
  rw [← h3]
  have e := compress_eq M hr (updateBlocks c s (blocks c.blockSize ((d.length - 1) / c.blockSize) d)).h (hd d.length (Nat.le_refl _))
    (Spec.Blake2.zeroPad c.blockSize (d.drop ((d.length - 1) / c.blockSize * c.blockSize))) true
  rw [← e]
  have hblk : h.buf.data.take (d.length - (d.length - 1) / c.blockSize * c.blockSize) ++
      List.replicate (c.blockSize - (d.length - (d.length - 1) / c.blockSize * c.blockSize)) 0 =
      Spec.Blake2.zeroPad c.blockSize (d.drop ((d.length - 1) / c.blockSize * c.blockSize)) := by
    rw [← hb, Spec.Blake2.zeroPad, wf.length_content, hpos, BlockBuffer.content, hpos]
  rw [hblk]
  rfl

/-! ### Parameter block -/

theorem piece_head {n i : Nat} {A T : Bytes} (h : n * i + n ≤ A.length) :
    ((A ++ T).drop (n * i)).take n = (A.drop (n * i)).take n := by
  rw [List.drop_append_of_le_length (by omega), List.take_append_of_le_length (by simp; omega)]

theorem length_zeroPad {n : Nat} {x : Bytes} (h : x.length ≤ n) : (Spec.Blake2.zeroPad n x).length = n := by
  simp [Spec.Blake2.zeroPad]; omega

theorem padded_eq {n : Nat} {x : Bytes} (h : x.length ≤ n) : padded n x = Spec.Blake2.zeroPad n x := by
  simp only [padded, Spec.Blake2.zeroPad, overwrite, List.take_zero, List.nil_append, Nat.zero_add, List.drop_replicate]

theorem twoWords_eq {n : Nat} {x : Bytes} (h : x.length ≤ 2 * n) :
    twoWords (8 * n) (2 * n) x =
      ⟨BitVec.ofNat _ (ofLE ((Spec.Blake2.zeroPad (2 * n) x).take n)),
       BitVec.ofNat _ (ofLE ((Spec.Blake2.zeroPad (2 * n) x).drop n))⟩ := by
  have e : 2 * n / 2 = n := by omega
  simp only [twoWords]
  split
  · rw [show overwrite (List.replicate (2 * n) 0) 0 x = padded (2 * n) x from rfl, padded_eq h, e]
  · rename_i h'
    have hl : x.length = 2 * n := by omega
    rw [hl, e, Spec.Blake2.zeroPad, hl, Nat.sub_self]
    simp

/-- The head of the parameter block. -/
def headBytes (n kk nn : Nat) : Bytes := [BitVec.ofNat 8 nn, BitVec.ofNat 8 kk, 1, 1] ++ List.replicate (4 * n - 4) 0

/-- The words of the head: the code's `p[0]`, then zeros. -/
def HeadOk (n kk nn : Nat) : Prop :=
  wordLE (8 * n) (headBytes n kk nn) 0 =
      (0x01010000 ^^^ (BitVec.ofNat (8 * n) kk <<< 8)) ^^^ BitVec.ofNat (8 * n) nn ∧
  wordLE (8 * n) (headBytes n kk nn) 1 = 0 ∧ wordLE (8 * n) (headBytes n kk nn) 2 = 0 ∧
  wordLE (8 * n) (headBytes n kk nn) 3 = 0

instance (n kk nn : Nat) : Decidable (HeadOk n kk nn) := inferInstanceAs (Decidable (_ ∧ _))

theorem headB : ∀ kk < 65, ∀ nn < 65, HeadOk 8 kk nn := by decide +kernel
theorem headS : ∀ kk < 33, ∀ nn < 33, HeadOk 4 kk nn := by decide +kernel

theorem params_eq {n : Nat} (h4 : 4 ≤ 4 * n) {c : Cfg (8 * n)} {V : Spec.Blake2.Variant (8 * n)} (M : Match c V)
    (hb : c.bytes = 8 * n) (head : ∀ kk < 8 * n + 1, ∀ nn < 8 * n + 1, HeadOk n kk nn)
    (salt persona : Bytes) (kk nn : Nat) :
    (¬ (kk ≤ 8 * n ∧ nn ≤ 8 * n ∧ salt.length ≤ 2 * n ∧ persona.length ≤ 2 * n) ∧
      newWithParams c salt persona kk nn = none) ∨
    (kk ≤ 8 * n ∧ nn ≤ 8 * n ∧ salt.length ≤ 2 * n ∧ persona.length ≤ 2 * n) ∧
    ∃ s, newWithParams c salt persona kk nn = some s ∧ s.t = 0 ∧ s.h0 = s.h ∧
      hl s.h = Spec.Blake2.start V (Spec.Blake2.paramBlock (8 * n) salt persona kk nn) := by
  have e4 : 8 * n / 4 = 2 * n := by omega
  simp only [newWithParams, hb, e4]
  by_cases h1 : kk ≤ 8 * n
  case neg => left; simp [h1]
  by_cases h2 : nn ≤ 8 * n
  case neg => left; simp [h1, h2]
  by_cases h3 : salt.length ≤ 2 * n
  case neg => left; simp [h1, h2, h3]
  by_cases h5 : persona.length ≤ 2 * n
  case neg => left; simp [h1, h2, h3, h5]
  right
  refine ⟨⟨h1, h2, h3, h5⟩, ?_⟩
  rw [if_neg (by simpa using h1), if_neg (by simpa using h2), if_neg (by simpa using h3), if_neg (by simpa using h5)]
  refine ⟨_, rfl, rfl, rfl, ?_⟩
  simp only [twoWords_eq h3, twoWords_eq h5]
  obtain ⟨a0, a1, a2, a3⟩ := head kk (by omega) nn (by omega)
  have hA : (headBytes n kk nn).length = 4 * n := by simp [headBytes]; omega
  have hS := length_zeroPad h3
  have hP := length_zeroPad h5
  have hB : Spec.Blake2.paramBlock (8 * n) salt persona kk nn =
      headBytes n kk nn ++ (Spec.Blake2.zeroPad (2 * n) salt ++ Spec.Blake2.zeroPad (2 * n) persona) := by
    simp only [Spec.Blake2.paramBlock, e4, headBytes, show 8 * n / 2 = 4 * n by omega, List.append_assoc]
  rw [hB]
  generalize Spec.Blake2.zeroPad (2 * n) salt = S at *
  generalize Spec.Blake2.zeroPad (2 * n) persona = P at *
  generalize headBytes n kk nn = A at *
  have en : 8 * n / 8 = n := by omega
  have w0 : ∀ i < 4, wordLE (8 * n) (A ++ (S ++ P)) i = wordLE (8 * n) A i := by
    intro i hi
    simp only [wordLE, en]
    rw [piece_head]
    rw [hA]
    have := Nat.mul_le_mul_left n (show i ≤ 3 by omega)
    omega
  have w4 : wordLE (8 * n) (A ++ (S ++ P)) 4 = BitVec.ofNat _ (ofLE (S.take n)) := by
    simp only [wordLE, en]
    rw [List.drop_left' (by omega), List.take_append_of_le_length (by omega)]
  have w5 : wordLE (8 * n) (A ++ (S ++ P)) 5 = BitVec.ofNat _ (ofLE (S.drop n)) := by
    simp only [wordLE, en]
    rw [show n * 5 = A.length + n by omega, ← List.drop_drop, List.drop_left, List.drop_append_of_le_length (by omega),
      List.take_left' (by simp; omega)]
  have w6 : wordLE (8 * n) (A ++ (S ++ P)) 6 = BitVec.ofNat _ (ofLE (P.take n)) := by
    simp only [wordLE, en]
    rw [show n * 6 = A.length + S.length by omega, ← List.drop_drop, List.drop_left, List.drop_left]
  have w7 : wordLE (8 * n) (A ++ (S ++ P)) 7 = BitVec.ofNat _ (ofLE (P.drop n)) := by
    simp only [wordLE, en]
    rw [show n * 7 = A.length + S.length + n by omega, ← List.drop_drop, ← List.drop_drop, List.drop_left, List.drop_left,
      List.take_of_length_le (by simp; omega)]
  have z : ∀ x : BitVec (8 * n), x ^^^ 0 = x := fun x => BitVec.xor_zero
  simp only [Spec.Blake2.start, ← M.IV, List.range, List.range.loop, List.map_cons, List.map_nil, w0 0 (by decide),
    w0 1 (by decide), w0 2 (by decide), w0 3 (by decide), w4, w5, w6, w7, a0, a1, a2, a3, hl, Vec.xor, V4.zip, Cfg.iv0, Cfg.iv1,
    V4.toList, V8.toList, List.cons_append, List.nil_append, List.getD_cons_zero, List.getD_cons_succ, z]

/-! ### Instances -/

/-- Everything the message-level theorems need about one macro instance, `n` bytes per word. -/
structure Good (n : Nat) (c : Cfg (8 * n)) (V : Spec.Blake2.Variant (8 * n)) : Prop where
  M : Match c V
  hr : Rounds c V
  hb : c.bytes = 8 * n
  hbs : c.blockSize = 16 * n
  h4 : 4 ≤ 4 * n
  head : ∀ kk < 8 * n + 1, ∀ nn < 8 * n + 1, HeadOk n kk nn

theorem goodB : Good 8 cfgB Spec.Blake2.b := ⟨matchB, ⟨rfl⟩, rfl, rfl, by decide, headB⟩
theorem goodS : Good 4 cfgS Spec.Blake2.s := ⟨matchS, ⟨rfl⟩, rfl, rfl, by decide, headS⟩

variable {n : Nat} {c : Cfg (8 * n)} {V : Spec.Blake2.Variant (8 * n)}

theorem Good.lawful (g : Good n c V) : (varCore c).Lawful := Blake2.lawful c (by have := g.h4; have := g.hbs; omega)

/-- Any hasher holding `d` on top of accepted parameters finishes with the RFC value. -/
theorem Good.finish (g : Good n c V) {salt persona : Bytes} {kk nn out : Nat} {s : State (8 * n)}
    (hs : newWithParams c salt persona kk nn = some s) {h : Hasher (State (8 * n))} {d : Bytes}
    (r : ((varCore c).ctWith out s).Rep h d) (hd : ∀ k ≤ d.length, CountOk c k) :
    finalizeFull c h.core h.buf = bytesOfWordsLE (Spec.Blake2.process V
      (Spec.Blake2.start V (Spec.Blake2.paramBlock (8 * n) salt persona kk nn)) d) := by
  rcases params_eq g.h4 g.M g.hb g.head salt persona kk nn with ⟨-, h0⟩ | ⟨-, s', h1, h2, -, h4⟩
  · rw [h0] at hs; cases hs
  · rw [h1] at hs; cases hs
    rw [finish_spec g.M g.hr h2 r hd, h4]

theorem updateBlocks_h0 (s : State (8 * n)) (l : List Bytes) : (updateBlocks c s l).h0 = s.h0 := by
  induction l generalizing s with
  | nil => rfl
  | cons b l ih => exact ih _

/-! ### MAC -/

/-- The MAC object `m`, created from `s0` with optional key block `kb`, has absorbed `d` since (re)start. -/
structure MacRep (c : Cfg (8 * n)) (s0 : State (8 * n)) (kb : Option Bytes) (m : Mac (8 * n)) (d : Bytes) : Prop where
  rep : ((varCore c).ctWith 0 s0).Rep ⟨m.core, m.buffer⟩ d
  key : m.keyBlock = kb

theorem zeroPad_zeroPad {a b : Nat} {x : Bytes} (h : x.length ≤ a) (h' : a ≤ b) :
    Spec.Blake2.zeroPad b (Spec.Blake2.zeroPad a x) = Spec.Blake2.zeroPad b x := by
  simp only [Spec.Blake2.zeroPad, List.append_assoc, List.length_append, List.length_replicate,
    List.replicate_append_replicate]
  congr 2; omega

theorem rep_block (g : Good n c V) (s0 : State (8 * n)) {blk : Bytes} (h : blk.length = c.blockSize) :
    ((varCore c).ctWith 0 s0).Rep ⟨s0, bufferOf blk⟩ blk := by
  have hbs := g.hbs
  have h4 := g.h4
  have e : nFull ((varCore c).ctWith 0 s0).kind ((varCore c).ctWith 0 s0).bs blk.length = 0 := by
    simp only [VarCore.ctWith, varCore, nFull, h]
    exact Nat.div_eq_of_lt (by omega)
  refine ⟨⟨h, ?_⟩, ?_, ?_⟩
  · simp only [VarCore.ctWith, varCore, bufferOf, h]; exact Nat.le_refl _
  · rw [e]; rfl
  · rw [e]; simp [bufferOf, BlockBuffer.content]

theorem MacRep.update (g : Good n c V) {s0 : State (8 * n)} {kb : Option Bytes} {m : Mac (8 * n)} {d : Bytes}
    (r : MacRep c s0 kb m d) (x : Bytes) : MacRep c s0 kb (m.update c x) (d ++ x) :=
  ⟨r.rep.update (g.lawful.ct 0 s0) x, r.key⟩

/-- What a (re)started MAC has absorbed: its key block, if keyed. -/
def startOf (c : Cfg (8 * n)) : Option Bytes → Bytes
  | some k => Spec.Blake2.zeroPad c.blockSize k
  | none => []

theorem MacRep.reset (g : Good n c V) {s0 : State (8 * n)} {kb : Option Bytes} {m : Mac (8 * n)} {d : Bytes}
    (ht : s0.t = 0) (h0 : s0.h0 = s0.h) (hkb : ∀ k, kb = some k → k.length = c.bytes)
    (r : MacRep c s0 kb m d) :
    MacRep c s0 kb (m.reset c) (startOf c kb) := by
  have hc := r.rep.2.1
  have hcore : Blake2.reset m.core = s0 := by
    simp only at hc
    rw [hc]
    show Blake2.reset (updateBlocks c s0 _) = s0
    simp only [Blake2.reset, updateBlocks_h0]
    cases s0
    simp_all
  refine ⟨?_, r.key⟩
  simp only [Mac.reset, hcore, r.key]
  cases kb with
  | none => exact Core.Rep.new (g.lawful.ct 0 s0)
  | some k =>
    have := hkb k rfl
    have hb := g.hb; have hbs := g.hbs
    show ((varCore c).ctWith 0 s0).Rep ⟨s0, bufferOf (padded c.blockSize k)⟩ (Spec.Blake2.zeroPad c.blockSize k)
    rw [padded_eq (by omega)]
    exact rep_block g s0 (length_zeroPad (by omega))

end Hashes.Blake2
