import Verif.Proof.SpongeBits
/- cSHAKE: length encodings, the customization prefix, and the hash. -/
namespace Hashes

theorem digits256_spec (fuel x : Nat) (h : x ≤ fuel) :
    x < 256 ^ Spec.Keccak.digits256 fuel x ∧
    (0 < Spec.Keccak.digits256 fuel x → 256 ^ (Spec.Keccak.digits256 fuel x - 1) ≤ x) := by
  induction fuel generalizing x with
  | zero => simp [Spec.Keccak.digits256]; omega
  | succ fuel ih =>
    simp only [Spec.Keccak.digits256]
    by_cases h0 : x = 0
    · simp [h0]
    · rw [if_neg h0]
      obtain ⟨h1, h2⟩ := ih (x / 256) (by omega)
      generalize Spec.Keccak.digits256 fuel (x / 256) = d at *
      refine ⟨?_, fun _ => ?_⟩
      · rw [Nat.add_comm, Nat.pow_succ']; omega
      · rw [Nat.add_sub_cancel_left]
        cases d with
        | zero => simp; omega
        | succ d =>
          have := h2 (by omega)
          rw [Nat.add_sub_cancel] at this
          rw [Nat.pow_succ']
          omega

/-- The number of base-256 digits is determined by the usual bounds. -/
theorem digits256_unique {x n : Nat} (h1 : x < 256 ^ n) (h2 : 0 < n → 256 ^ (n - 1) ≤ x) :
    Spec.Keccak.digits256 x x = n := by
  obtain ⟨h3, h4⟩ := digits256_spec x x (Nat.le_refl _)
  generalize Spec.Keccak.digits256 x x = d at *
  rcases Nat.lt_trichotomy d n with h | h | h
  · have := h2 (by omega)
    have : 256 ^ d ≤ 256 ^ (n - 1) := Nat.pow_le_pow_right (by decide) (by omega)
    omega
  · exact h
  · have := h4 (by omega)
    have : 256 ^ n ≤ 256 ^ (d - 1) := Nat.pow_le_pow_right (by decide) (by omega)
    omega

namespace Sha3
open Spec.Keccak

theorem zeroRun_replicate (k : Nat) (r : Bytes) (h : r = [] ∨ ∃ x t, r = x :: t ∧ x ≠ 0) :
    zeroRun (List.replicate k 0 ++ r) = k := by
  induction k with
  | zero =>
    rcases h with h | ⟨x, t, h, hx⟩
    · simp [h, zeroRun]
    · subst h
      show (if x = 0 then _ else 0) = 0
      rw [if_neg hx]
  | succ k ih =>
    rw [List.replicate_succ, List.cons_append]
    show (if (0 : Byte) = 0 then 1 + zeroRun (List.replicate k 0 ++ r) else 0) = k + 1
    rw [if_pos rfl, ih, Nat.add_comm]

theorem beBytes_split {x n k : Nat} (h : x < 256 ^ n) : beBytes (k + n) x = List.replicate k 0 ++ beBytes n x := by
  rw [beBytes_append, Nat.div_eq_of_lt h, beBytes_zero]

theorem beBytes_head (x n : Nat) : beBytes (n + 1) x = BitVec.ofNat 8 (x / 256 ^ n) :: beBytes n x := by
  rw [Nat.add_comm n 1, beBytes_append]
  rfl

/-- `left_encode` is SP 800-185's, whatever the scratch array held. -/
theorem leftEncode_eq (v : W64) {b : Bytes} (hb : b.length = 9) :
    (leftEncode v b).1 = Spec.Keccak.leftEncode v.toNat ∧ (leftEncode v b).2.length = 9 := by
  obtain ⟨b0, t, rfl⟩ : ∃ b0 t, b = b0 :: t := by
    cases b with
    | nil => simp at hb
    | cons x t => exact ⟨x, t, rfl⟩
  have hx := v.isLt
  simp only [leftEncode]
  generalize v.toNat = x at hx ⊢
  obtain ⟨h1, h2⟩ := digits256_spec x x (Nat.le_refl _)
  generalize hn : max 1 (digits256 x x) = n
  have hd8 : digits256 x x ≤ 8 := by
    rcases Nat.lt_or_ge 8 (digits256 x x) with h | h
    · have := h2 (by omega)
      have : 256 ^ 8 ≤ 256 ^ (digits256 x x - 1) := Nat.pow_le_pow_right (by decide) (by omega)
      omega
    · exact h
  have hlt : x < 256 ^ n := Nat.lt_of_lt_of_le h1 (Nat.pow_le_pow_right (by decide) (by omega))
  have hn1 : 1 ≤ n := by omega
  have hn8 : n ≤ 8 := by omega
  have hsplit : beBytes 8 x = List.replicate (8 - n) 0 ++ beBytes n x := by
    have := beBytes_split (k := 8 - n) hlt
    rwa [show 8 - n + n = 8 by omega] at this
  have hrun : zeroRun (((((b0 :: t).take 1 ++ beBytes 8 x)).drop 1).take 7) = 8 - n := by
    simp only [List.take_succ_cons, List.take_zero, List.cons_append, List.nil_append, List.drop_succ_cons, List.drop_zero]
    rw [hsplit, List.take_append, List.take_of_length_le (by simp; omega), List.length_replicate]
    apply zeroRun_replicate
    by_cases hn' : n = 1
    · left; simp [hn']
    · right
      obtain ⟨k, rfl⟩ : ∃ k, n = k + 2 := ⟨n - 2, by omega⟩
      have hd : digits256 x x = k + 2 := by omega
      rw [hd] at h2
      have h2 := h2 (by omega)
      refine ⟨BitVec.ofNat 8 (x / 256 ^ (k + 1)), (beBytes (k + 1) x).take (7 - (8 - (k + 2)) - 1), ?_, ?_⟩
      · rw [beBytes_head, show 7 - (8 - (k + 2)) = (7 - (8 - (k + 2)) - 1) + 1 by omega]
        rfl
      · intro hc
        have hc := congrArg BitVec.toNat hc
        simp only [BitVec.toNat_ofNat] at hc
        have a1 : x / 256 ^ (k + 1) < 256 := by
          apply Nat.div_lt_of_lt_mul; rw [Nat.mul_comm, ← Nat.pow_succ']; exact hlt
        have a2 : 1 ≤ x / 256 ^ (k + 1) := by
          apply (Nat.le_div_iff_mul_le (Nat.pow_pos (by decide))).2; simpa using h2
        have : x / 256 ^ (k + 1) % 2 ^ 8 = x / 256 ^ (k + 1) := Nat.mod_eq_of_lt a1
        simp at hc
        omega
  have hset : ∀ (y : Byte) (i : Nat) (l : Bytes), i ≤ l.length → ((b0 :: l).set i y).drop i = y :: l.drop i := by
    intro y i l hi
    rw [List.drop_set, if_neg (Nat.lt_irrefl _), Nat.sub_self,
      List.drop_eq_getElem_cons (by simp only [List.length_cons]; omega)]
    simp
  rw [hrun]
  refine ⟨?_, by simp⟩
  simp only [List.take_succ_cons, List.take_zero, List.cons_append, List.nil_append]
  rw [hset _ _ _ (by simp), hsplit, List.drop_left' (by simp), show 8 - (8 - n) = n by omega]
  simp only [Spec.Keccak.leftEncode, hn]

/-- What `new_with_function_name` feeds before padding to the rate. -/
def prefixBytes (rate : Nat) (name cust : Bytes) : Bytes :=
  Spec.Keccak.leftEncode rate ++ Spec.Keccak.encodeString name ++ Spec.Keccak.encodeString cust

/-- … and after: zeros up to the next multiple of the rate, at least one. -/
def paddedPrefix (rate : Nat) (name cust : Bytes) : Bytes :=
  prefixBytes rate name cust ++ List.replicate (rate - (prefixBytes rate name cust).length % rate) 0

theorem paddedPrefix_dvd {rate : Nat} (h0 : 0 < rate) (name cust : Bytes) :
    rate ∣ (paddedPrefix rate name cust).length := by
  have := Nat.mod_lt (prefixBytes rate name cust).length h0
  have := Nat.div_add_mod (prefixBytes rate name cust).length rate
  refine ⟨(prefixBytes rate name cust).length / rate + 1, ?_⟩
  simp only [paddedPrefix, List.length_append, List.length_replicate, Nat.mul_add]
  omega

/-- Feed a list of pieces through a fresh buffer, then absorb the zero-padded rest. -/
theorem feed_eq {f : Lanes → Lanes} (hf : Perm f) {rate : Nat} (h0 : 0 < rate) (l : List Bytes) (a : BlockBuffer × Lanes)
    (ha : a = l.foldl (fun (a : BlockBuffer × Lanes) d => a.1.digestBlocks .eager rate d (updateBlocks f) a.2)
      (BlockBuffer.empty rate, zero)) :
    absorbBlock f a.2 (a.1.padWithZeros rate).1 = updateBlocks f zero (chunks rate (l.flatten ++
      List.replicate (rate - l.flatten.length % rate) 0)) := by
  have L := shake_lawful hf h0 (0 : Byte)
  have R := Core.Rep.updates L (Core.Rep.new L) l
  have key : (Core.updates (shake f rate 0) (shake f rate 0).new l) = ⟨a.2, a.1⟩ := by
    subst ha
    have : ∀ (h : Hasher Lanes) (a : BlockBuffer × Lanes), h = ⟨a.2, a.1⟩ → Core.updates (shake f rate 0) h l =
        ⟨(l.foldl (fun (a : BlockBuffer × Lanes) d => a.1.digestBlocks .eager rate d (updateBlocks f) a.2) a).2,
         (l.foldl (fun (a : BlockBuffer × Lanes) d => a.1.digestBlocks .eager rate d (updateBlocks f) a.2) a).1⟩ := by
      induction l with
      | nil => intro h a e; exact e
      | cons d l ih =>
        intro h a e
        simp only [Core.updates, List.foldl_cons] at ih ⊢
        apply ih (Core.Rep.updates L (Core.Rep.new L) l)
        subst e
        rfl
    exact this _ _ rfl
  rw [key, List.nil_append] at R
  obtain ⟨wf, hc, hb⟩ := R
  simp only [shake, nFull] at wf hc hb
  generalize l.flatten = P at *
  have hlt := wf.2
  have hcl := wf.length_content
  simp only at hlt hcl
  have hdm := Nat.div_add_mod' P.length rate
  have hm := Nat.mod_lt P.length h0
  rw [BlockBuffer.padWithZeros, chunks_tail h0, chunks_single h0 (by simp; omega), hc]
  have e : ∀ s x y, absorbBlock f (updateBlocks f s x) y = updateBlocks f s (x ++ [y]) := by
    intro s x y; simp [updateBlocks]
  rw [e, ← hb]
  simp only
  rw [show P.length % rate = P.length - P.length / rate * rate by omega, ← List.length_drop, ← hb, hcl]
  rfl

theorem new_eq {f : Lanes → Lanes} (hf : Perm f) {rate : Nat} (h0 : 0 < rate)
    {name cust : Bytes} (hne : ¬ (name = [] ∧ cust = [])) :
    ∃ p : Bytes, rate ∣ p.length ∧ CShake.new f rate name cust = ⟨updateBlocks f zero (chunks rate p),
      updateBlocks f zero (chunks rate p), 0x04⟩ ∧ (rate < 2 ^ 64 → 8 * name.length < 2 ^ 64 → 8 * cust.length < 2 ^ 64 →
        p = paddedPrefix rate name cust) := by
  have hb : (List.replicate 9 (0 : Byte)).length = 9 := by simp
  obtain ⟨a1, a2⟩ := leftEncode_eq (BitVec.ofNat 64 rate) hb
  obtain ⟨b1, b2⟩ := leftEncode_eq (BitVec.ofNat 64 (name.length * 8)) a2
  obtain ⟨c1, c2⟩ := leftEncode_eq (BitVec.ofNat 64 (cust.length * 8)) b2
  let l := [Spec.Keccak.leftEncode (rate % 2 ^ 64), Spec.Keccak.leftEncode (name.length * 8 % 2 ^ 64), name,
    Spec.Keccak.leftEncode (cust.length * 8 % 2 ^ 64), cust]
  refine ⟨l.flatten ++ List.replicate (rate - l.flatten.length % rate) 0, ?_, ?_, ?_⟩
  · have := Nat.mod_lt l.flatten.length h0
    have := Nat.div_add_mod l.flatten.length rate
    refine ⟨l.flatten.length / rate + 1, ?_⟩
    simp only [List.length_append, List.length_replicate, Nat.mul_add]
    omega
  · have hif : ¬ (name.isEmpty = true ∧ cust.isEmpty = true) := by simpa using hne
    rw [← feed_eq hf h0 l _ rfl]
    simp only [BitVec.toNat_ofNat] at a1 b1 c1
    simp only [CShake.new, if_neg hif, a1, b1, c1, l, List.foldl_cons, List.foldl_nil]
  · intro h1 h2 h3
    have hP : l.flatten = prefixBytes rate name cust := by
      simp only [l, Nat.mod_eq_of_lt h1, Nat.mod_eq_of_lt (show name.length * 8 < 2 ^ 64 by omega),
        Nat.mod_eq_of_lt (show cust.length * 8 < 2 ^ 64 by omega)]
      simp [prefixBytes, encodeString, Nat.mul_comm]
    rw [hP]
    rfl

theorem new_state {f : Lanes → Lanes} (hf : Perm f) {rate : Nat} (h0 : 0 < rate) (hr : rate < 2 ^ 64)
    {name cust : Bytes} (hn : 8 * name.length < 2 ^ 64) (hs : 8 * cust.length < 2 ^ 64)
    (hne : ¬ (name = [] ∧ cust = [])) :
    CShake.new f rate name cust = ⟨updateBlocks f zero (chunks rate (paddedPrefix rate name cust)),
      updateBlocks f zero (chunks rate (paddedPrefix rate name cust)), 0x04⟩ := by
  obtain ⟨p, -, h1, h2⟩ := new_eq hf h0 hne
  rw [h1, h2 hr hn hs]

theorem new_empty (f : Lanes → Lanes) (rate : Nat) : CShake.new f rate [] [] = ⟨zero, zero, 0x1f⟩ := rfl

theorem cshake_lawful {f : Lanes → Lanes} (hf : Perm f) {rate : Nat} (h0 : 0 < rate) (name cust : Bytes) :
    (cshake f rate name cust).Lawful (fun s => s.state.length = 25 ∧
      s.initialState = (CShake.new f rate name cust).state ∧ s.padding = (CShake.new f rate name cust).padding) where
  bs_pos := h0
  nil := fun s => rfl
  app := fun s x y => by simp [cshake, updateBlocks]
  inv_init := by
    have h1 : (CShake.new f rate name cust).initialState = (CShake.new f rate name cust).state := by
      unfold CShake.new; split <;> rfl
    refine ⟨?_, h1, rfl⟩
    show (CShake.new f rate name cust).state.length = 25
    by_cases hne : name = [] ∧ cust = []
    · rw [hne.1, hne.2, new_empty]; simp [zero]
    · obtain ⟨p, -, h1, -⟩ := new_eq hf h0 hne
      rw [h1]
      exact length_updateBlocks hf _ (by simp [zero])
  inv_update := fun s x _ h => ⟨length_updateBlocks hf x h.1, h.2⟩
  reset_eq := fun s h => by
    have h1 : (CShake.new f rate name cust).initialState = (CShake.new f rate name cust).state := by
      unfold CShake.new; split <;> rfl
    simp only [cshake]
    ext1
    · exact h.2.1
    · rw [h1]; exact h.2.1
    · exact h.2.2
  fin_congr := fun s b b' h h' hc => by
    simp only [cshake] at h h' ⊢
    rw [lastBlock_congr h h' hc]

/-- Everything the core does is hashing the padded prefix followed by the message. -/
theorem cshake_digest {f : Lanes → Lanes} (hf : Perm f) {rate : Nat} (h0 : 0 < rate) (h8 : 8 ∣ rate) (hr : rate ≤ 200)
    {name cust p : Bytes} {D : Byte} (hD : D.toNat < 128) (hp : rate ∣ p.length)
    (hi : CShake.new f rate name cust = ⟨updateBlocks f zero (chunks rate p), updateBlocks f zero (chunks rate p), D⟩)
    (m : Bytes) :
    ((cshake f rate name cust).digest m).length = 25 ∧
      bytes ((cshake f rate name cust).digest m) = absorbBytes f rate D (p ++ m) := by
  obtain ⟨b, h1, h2, -, h4⟩ := Core.digest_eager (cshake_lawful hf h0 name cust) rfl m
  rw [h4]
  simp only [cshake] at h1 h2 ⊢
  rw [hi]
  simp only
  refine ⟨length_absorbBlock hf (length_updateBlocks hf _ (length_updateBlocks hf _ (by simp [zero]))) _, ?_⟩
  have e1 : updateBlocks f (updateBlocks f zero (chunks rate p)) (blocks rate (m.length / rate) m) =
      updateBlocks f zero (blocks rate ((p ++ m).length / rate) (p ++ m)) := by
    have := chunks_append h0 m hp
    simp only [chunks] at this
    rw [this]
    simp [updateBlocks, chunks]
  obtain ⟨j, hj⟩ := hp
  have e2 : (p ++ m).length / rate * rate = p.length + m.length / rate * rate := by
    rw [List.length_append, hj, Nat.mul_add_div h0, Nat.add_mul, Nat.mul_comm rate j]
  rw [e1, absorb_eq hf h0 h8 hr hD (p ++ m) h1]
  rw [e2, List.drop_append, List.drop_of_length_le (by omega), Nat.add_sub_cancel_left, h2]
  rfl

end Sha3
end Hashes
