import Verif.Proof.FsbBits
/- Helper lemmas: `shift_and_truncate` never panics and is the rotation of the bits. -/
namespace Hashes.Fsb
open Spec.Fsb (bit num pack)

variable {a : Bytes}

theorem shlB (k m u : Nat) (hu : u < 8) : mb (a.getD k 0 <<< m) u = (decide (u + m < 8) && bit a (8 * k + u + m)) := by
  rw [mb_shl _ _ _ hu]
  by_cases h : u + m < 8
  · rw [bit_mb _ _ _ h, Nat.add_assoc]
  · simp [h]

theorem shrB (k m u : Nat) (hu : u < 8) : mb (a.getD k 0 >>> m) u = (decide (m ≤ u) && bit a (8 * k + u - m)) := by
  rw [mb_shr _ _ _ hu]
  by_cases h : m ≤ u
  · rw [bit_mb _ _ _ (by omega), Nat.add_sub_assoc h]
  · simp [h]

/-- Two neighbouring bytes, joined. -/
theorem joinXor (k m m' u : Nat) (hu : u < 8) (h : m + m' = 8) :
    mb (a.getD k 0 <<< m ^^^ a.getD (k + 1) 0 >>> m') u = bit a (8 * k + u + m) := by
  rw [mb_xor, shlB _ _ _ hu, shrB _ _ _ hu]
  by_cases c : u + m < 8
  · simp [c, show ¬ m' ≤ u by omega]
  · simp only [c, decide_false, Bool.false_and, show m' ≤ u by omega, decide_true, Bool.true_and, Bool.false_xor]
    rw [show 8 * (k + 1) + u - m' = 8 * k + u + m by omega]

theorem joinOr (k m m' u : Nat) (hu : u < 8) (h : m + m' = 8) :
    mb (a.getD k 0 <<< m ||| a.getD (k + 1) 0 >>> m') u = bit a (8 * k + u + m) := by
  rw [mb_or, shlB _ _ _ hu, shrB _ _ _ hu]
  by_cases c : u + m < 8
  · simp [c, show ¬ m' ≤ u by omega]
  · simp only [c, decide_false, Bool.false_and, show m' ≤ u by omega, decide_true, Bool.true_and, Bool.false_or]
    rw [show 8 * (k + 1) + u - m' = 8 * k + u + m by omega]

theorem rot_ge {x p sv : Nat} (hx : x < p) (h : sv ≤ x) : (x + p - sv) % p = x - sv := by
  rw [show x + p - sv = (x - sv) + p by omega, Nat.add_mod_right, Nat.mod_eq_of_lt (by omega)]
theorem rot_lt {x p sv : Nat} (h : x < sv) (hs : sv < p) : (x + p - sv) % p = x + p - sv := Nat.mod_eq_of_lt (by omega)

theorem getD_zeros (R k : Nat) : (List.replicate R (0 : Byte)).getD k 0 = 0 := by
  simp only [List.getD_eq_getElem?_getD, List.getElem?_replicate]; split <;> rfl

theorem set_set_same (l : Bytes) (i : Nat) (x y : Byte) : (l.set i x).set i y = l.set i y := by simp

/-- From bytes to bits. -/
theorem bits_of_bytes {t : Bytes} {R p sv : Nat} (h : ∀ k < R, ∀ u < 8, mb (t.getD k 0) u = bit a ((8 * k + u + p - sv) % p)) :
    ∀ j < 8 * R, bit t j = bit a ((j + p - sv) % p) := by
  intro j hj
  have := h (j / 8) (by omega) (j % 8) (by omega)
  rw [bit_mb _ _ _ (by omega), show 8 * (j / 8) + j % 8 = j by omega] at this
  exact this

variable {P : Params} {sv : Nat}

theorem loop_post {lo hi : Nat} {body : Nat → Bytes → Option Bytes} {t : Bytes} (f : Nat → Byte → Byte) {Φ : Bytes → Prop} (hh : hi ≤ t.length)
    (hb : ∀ i t', lo ≤ i → i < hi → t'.length = t.length → body i t' = some (t'.set i (f i (t'.getD i 0))))
    (hΦ : ∀ t' : Bytes, t'.length = t.length → (∀ k, t'.getD k 0 = if lo ≤ k ∧ k < hi then f k (t.getD k 0) else t.getD k 0) → Φ t') :
    ∃ t', loop lo hi body t = some t' ∧ Φ t' := by
  obtain ⟨t', e, l, g⟩ := loop_eq lo hi body t f hh hb
  exact ⟨t', e, hΦ t' l g⟩

theorem bind_post {x : Option Bytes} {f : Bytes → Option Bytes} {Ψ : Bytes → Prop} (Φ : Bytes → Prop) (h : ∃ t', x = some t' ∧ Φ t')
    (hf : ∀ t', Φ t' → ∃ t, f t' = some t ∧ Ψ t) : ∃ t, x.bind f = some t ∧ Ψ t := by
  obtain ⟨t', rfl, h⟩ := h
  exact hf t' h

local macro "disc" : tactic => `(tactic| first | omega | (simp only [List.length_set, List.length_replicate]; omega))
local macro "ops" : tactic => `(tactic| simp (disch := disc) only [csub_eq, idx_eq, shl_eq, shr_eq, store_eq, xorAt_eq, Option.bind_eq_bind, Option.bind_some])

local macro "reads" : tactic => `(tactic| simp (disch := disc) only [csub_eq, idx_eq, shl_eq, shr_eq, Option.bind_eq_bind, Option.bind_some])

theorem zx (x : Byte) : 0 ^^^ x = x := BitVec.zero_xor

/-- Two xors into the same position. -/
theorem xor2 (t' : Bytes) (i : Nat) (v v' : Byte) (h : i < t'.length) :
    ((xorAt t' i v).bind fun t => xorAt t i v') = some (t'.set i (t'.getD i 0 ^^^ (v ^^^ v'))) := by
  rw [xorAt_eq h, Option.bind_some, xorAt_eq (by simpa using h), set_set_same, getD_set _ _ _ _ h, if_pos rfl, BitVec.xor_assoc]

theorem sat_small (hr : 8 * (P.r / 8) = P.r) (hrp : P.r ≤ P.p) (hl : a.length = P.p / 8 + 1) (hz : ∀ j, P.p ≤ j → bit a j = false) (hs : sv < P.r)
    (h0 : sv ≠ 0) (h1 : sv ≤ P.p % 8) :
    ∃ t, shiftAndTruncate P a sv = some t ∧ t.length = P.r / 8 ∧ ∀ j < 8 * (P.r / 8), bit t j = bit a ((j + P.p - sv) % P.p) := by
  rw [shiftAndTruncate]
  simp only [if_neg h0, if_pos h1, Params.sizeOutput]
  have hR : 0 < P.r / 8 := by omega
  ops
  refine loop_post (fun i x => x ^^^ (a.getD (i - 1) 0 <<< (8 - sv) ^^^ a.getD i 0 >>> sv)) (by simp) ?_ ?_
  · intro i t' h1 h2 h3
    simp only [List.length_set, List.length_replicate] at h3
    reads
    exact xor2 _ _ _ _ (by omega)
  · intro t' l g
    simp only [List.length_set, List.length_replicate] at l
    refine ⟨l, bits_of_bytes fun k hk u hu => ?_⟩
    rw [g k, set_set_same, getD_set _ _ _ _ (by simp; omega), getD_set _ _ _ _ (by simp; omega), if_pos rfl, getD_zeros]
    by_cases hk0 : 0 = k
    · subst hk0
      rw [if_neg (by omega), if_pos rfl, mb_xor, shlB _ _ _ hu, shrB _ _ _ hu]
      by_cases hsu : sv ≤ u
      · rw [rot_ge (by omega) (by omega), hz (8 * (a.length - 1) + u + (P.p % 8 - sv % 256)) (by omega)]
        simp [hsu]
      · rw [rot_lt (by omega) (by omega)]
        simp only [hsu, decide_false, Bool.false_and, Bool.xor_false, show u + (P.p % 8 - sv % 256) < 8 by omega, decide_true, Bool.true_and]
        congr 1; omega
    · rw [if_pos (by omega), if_neg hk0, zx]
      have := joinXor (a := a) (k - 1) (8 - sv) sv u hu (by omega)
      rw [show k - 1 + 1 = k by omega] at this
      rw [this, rot_ge (by omega) (by omega)]
      congr 1; omega

set_option maxHeartbeats 2000000 in
theorem sat_large (hr : 8 * (P.r / 8) = P.r) (hrp : P.r ≤ P.p) (hc : P.p % 8 ≠ 0) (hl : a.length = P.p / 8 + 1)
    (hz : ∀ j, P.p ≤ j → bit a j = false) (hs : sv < P.r) (h1 : P.p % 8 < sv) :
    ∃ t, shiftAndTruncate P a sv = some t ∧ t.length = P.r / 8 ∧ ∀ j < 8 * (P.r / 8), bit t j = bit a ((j + P.p - sv) % P.p) := by
  rw [shiftAndTruncate]
  simp only [if_neg (show ¬ sv = 0 by omega), if_neg (show ¬ sv ≤ P.p % 8 by omega), Params.sizeOutput]
  have hR : 0 < P.r / 8 := by omega
  reads
  by_cases hrem : (sv - P.p % 8) % 8 = 0
  · rw [if_neg (by simpa using hrem)]
    rw [slice_eq (by omega) (by omega), Option.bind_some, if_pos (by simp; omega)]
    obtain ⟨bts, hb⟩ : ∃ b, (sv - P.p % 8 - 1) / 8 + 2 = b := ⟨_, rfl⟩
    rw [hb]
    have hb1 : 8 * bts = sv - P.p % 8 + 8 := by omega
    have hlen : ((a.drop (a.length - bts)).take (a.length - bts + bts - (a.length - bts)) ++ (List.replicate (P.r / 8) (0 : Byte)).drop bts).length = P.r / 8 := by
      simp; omega
    have hget : ∀ k, ((a.drop (a.length - bts)).take (a.length - bts + bts - (a.length - bts)) ++ (List.replicate (P.r / 8) (0 : Byte)).drop bts).getD k 0 =
        if k < bts then a.getD (a.length - bts + k) 0 else 0 := by
      intro k
      have hll : ((a.drop (a.length - bts)).take (a.length - bts + bts - (a.length - bts))).length = bts := by simp; omega
      simp only [List.getD_eq_getElem?_getD]
      by_cases hk : k < bts
      · rw [List.getElem?_append_left (by omega), List.getElem?_take_of_lt (by omega), List.getElem?_drop, if_pos hk]
      · rw [List.getElem?_append_right (by omega), if_neg hk, List.drop_replicate, List.getElem?_replicate]
        split <;> rfl
    generalize ((a.drop (a.length - bts)).take (a.length - bts + bts - (a.length - bts)) ++ (List.replicate (P.r / 8) (0 : Byte)).drop bts) = t0 at hlen hget ⊢
    ops
    refine loop_post (fun i x => x ^^^ (a.getD (i - bts) 0 <<< (8 - P.p % 8) ^^^ a.getD (i - bts + 1) 0 >>> (P.p % 8))) (by simp; omega) ?_ ?_
    · intro i t' h1 h2 h3
      simp only [List.length_set] at h3
      reads
      exact xor2 _ _ _ _ (by omega)
    · intro t' l g
      simp only [List.length_set] at l
      refine ⟨by omega, bits_of_bytes fun k hk u hu => ?_⟩
      rw [g k, getD_set _ _ _ _ (by omega), hget, hget]
      by_cases k1 : k < bts - 1
      · rw [if_neg (by omega), if_neg (by omega), if_pos (by omega), bit_mb _ _ _ hu, rot_lt (by omega) (by omega)]
        congr 1; omega
      · by_cases k2 : bts - 1 = k
        · rw [if_neg (by omega), if_pos k2, if_pos (by omega), mb_xor, bit_mb _ _ _ hu, shrB _ _ _ hu]
          by_cases hsu : P.p % 8 ≤ u
          · rw [hz _ (by omega), rot_ge (by omega) (by omega)]
            simp only [hsu, decide_true, Bool.true_and, Bool.false_xor]
            congr 1; omega
          · rw [rot_lt (by omega) (by omega)]
            simp only [hsu, decide_false, Bool.false_and, Bool.xor_false]
            congr 1; omega
        · rw [if_pos (by omega), if_neg k2, if_neg (by omega), zx, joinXor _ _ _ _ hu (by omega), rot_ge (by omega) (by omega)]
          congr 1; omega
  · rw [if_pos hrem]
    obtain ⟨bts, hb⟩ : ∃ b, (sv - P.p % 8 - 1) / 8 + 2 = b := ⟨_, rfl⟩
    obtain ⟨rem, hm⟩ : ∃ b, (sv - P.p % 8) % 8 = b := ⟨_, rfl⟩
    rw [hm] at hrem
    rw [hb, hm]
    have hb1 : 8 * bts = sv - P.p % 8 - rem + 16 := by omega
    have hrem8 : rem < 8 := by omega
    refine bind_post (fun t => t.length = P.r / 8 ∧ ∀ k < P.r / 8, ∀ u < 8, mb (t.getD k 0) u = if k < bts - 1 then bit a (8 * k + u + P.p - sv) else false) ?_ ?_
    · refine loop_post (fun k _ => a.getD (a.length - bts + k) 0 <<< (8 - rem) ||| a.getD (a.length - bts + k + 1) 0 >>> rem) (by simp; omega) ?_ ?_
      · intro i t' h1 h2 h3
        simp only [List.length_replicate] at h3
        ops
      · intro t' l g
        simp only [List.length_replicate] at l
        refine ⟨l, fun k hk u hu => ?_⟩
        rw [g k]
        by_cases k1 : k < bts - 1
        · rw [if_pos (by omega), if_pos k1, joinOr _ _ _ _ hu (by omega)]
          congr 1; omega
        · rw [if_neg (by omega), if_neg k1, getD_zeros, mb_zero]
    · intro t0 ⟨hlen, hget⟩
      by_cases hdiff : 8 - rem ≤ P.p % 8
      · rw [if_pos hdiff]
        by_cases hx : P.p % 8 - (8 - rem) > 0
        · rw [if_pos hx]
          ops
          refine loop_post (fun i x => x ^^^ (a.getD (i - bts) 0 <<< (8 - (P.p % 8 - (8 - rem))) ^^^ a.getD (i - bts + 1) 0 >>> (P.p % 8 - (8 - rem)))) (by simp; omega) ?_ ?_
          · intro i t' h1 h2 h3
            simp only [List.length_set] at h3
            reads
            exact xor2 _ _ _ _ (by omega)
          · intro t' l g
            simp only [List.length_set] at l
            refine ⟨by omega, bits_of_bytes fun k hk u hu => ?_⟩
            have hgk := hget k hk u hu
            rw [g k, set_set_same, getD_set _ _ _ _ (by omega), getD_set _ _ _ _ (by omega), if_pos rfl]
            by_cases k1 : k < bts - 1
            · rw [if_neg (by omega), if_neg (by omega), hgk, if_pos k1, rot_lt (by omega) (by omega)]
            · rw [if_neg k1] at hgk
              by_cases k2 : bts - 1 = k
              · rw [if_neg (by omega), if_pos k2, mb_xor, mb_xor, k2, hgk, Bool.false_xor, shlB _ _ _ hu, shrB _ _ _ hu]
                by_cases hsu : P.p % 8 - (8 - rem) ≤ u
                · rw [hz (8 * _ + u + _) (by omega), rot_ge (by omega) (by omega)]
                  simp only [hsu, decide_true, Bool.true_and, Bool.and_false, Bool.false_xor]
                  congr 1; omega
                · rw [rot_lt (by omega) (by omega)]
                  simp only [hsu, decide_false, Bool.false_and, Bool.xor_false, show u + (P.p % 8 - (P.p % 8 - (8 - rem))) < 8 by omega, decide_true, Bool.true_and]
                  congr 1; omega
              · rw [if_pos (by omega), if_neg k2, mb_xor, hgk, Bool.false_xor, joinXor _ _ _ _ hu (by omega), rot_ge (by omega) (by omega)]
                congr 1; omega
        · rw [if_neg hx]
          refine loop_post (fun i _ => a.getD (i - (bts - 1)) 0) (by omega) ?_ ?_
          · intro i t' h1 h2 h3
            ops
          · intro t' l g
            refine ⟨by omega, bits_of_bytes fun k hk u hu => ?_⟩
            have hgk := hget k hk u hu
            rw [g k]
            by_cases k1 : k < bts - 1
            · rw [if_neg (by omega), hgk, if_pos k1, rot_lt (by omega) (by omega)]
            · rw [if_pos (by omega), bit_mb _ _ _ hu, rot_ge (by omega) (by omega)]
              congr 1; omega
      · rw [if_neg hdiff]
        ops
        refine loop_post (fun i x => x ^^^ (a.getD (i - (bts - 1)) 0 <<< (8 - rem - P.p % 8) ^^^ a.getD (i - (bts - 1) + 1) 0 >>> (8 - (8 - rem - P.p % 8)))) (by simp; omega) ?_ ?_
        · intro i t' h1 h2 h3
          simp only [List.length_set] at h3
          reads
          exact xor2 _ _ _ _ (by omega)
        · intro t' l g
          simp only [List.length_set] at l
          refine ⟨by omega, bits_of_bytes fun k hk u hu => ?_⟩
          have hgk := hget k hk u hu
          rw [g k, getD_set _ _ _ _ (by omega)]
          by_cases k1 : k < bts - 2
          · rw [if_neg (by omega), if_neg (by omega), hgk, if_pos (by omega), rot_lt (by omega) (by omega)]
          · by_cases k2 : bts - 2 = k
            · rw [if_neg (by omega), if_pos k2, mb_xor, k2, hgk, if_pos (by omega), shrB _ _ _ hu]
              by_cases hsu : 8 - (8 - rem - P.p % 8) ≤ u
              · rw [hz (8 * k + u + P.p - sv) (by omega), rot_ge (by omega) (by omega)]
                simp only [hsu, decide_true, Bool.true_and, Bool.false_xor]
                congr 1; omega
              · rw [rot_lt (by omega) (by omega)]
                simp only [hsu, decide_false, Bool.false_and, Bool.xor_false]
            · rw [if_neg (by omega)] at hgk
              rw [if_pos (by omega), if_neg k2, mb_xor, hgk, Bool.false_xor, joinXor _ _ _ _ hu (by omega), rot_ge (by omega) (by omega)]
              congr 1; omega

/-- `shift_and_truncate` rotates the `p`-bit vector by `sv` positions and keeps `r` bits; it never panics. -/
theorem sat_eq (hr : 8 * (P.r / 8) = P.r) (hrp : P.r ≤ P.p) (hc : P.p % 8 ≠ 0) (hl : a.length = P.p / 8 + 1)
    (hz : ∀ j, P.p ≤ j → bit a j = false) (hs : sv < P.r) :
    ∃ t, shiftAndTruncate P a sv = some t ∧ t.length = P.r / 8 ∧ ∀ j < 8 * (P.r / 8), bit t j = bit a ((j + P.p - sv) % P.p) := by
  by_cases h0 : sv = 0
  · subst h0
    rw [shiftAndTruncate, if_pos rfl]
    rw [Params.sizeOutput, slice_eq (by omega) (by omega)]
    refine ⟨_, rfl, by simp; omega, fun j hj => ?_⟩
    rw [rot_ge (by omega) (by omega), Nat.sub_zero, bit, bit]
    simp only [List.getD_eq_getElem?_getD, List.drop_zero, Nat.sub_zero]
    rw [List.getElem?_take_of_lt (by omega)]
  · by_cases h1 : sv ≤ P.p % 8
    · exact sat_small hr hrp hl hz hs h0 h1
    · exact sat_large hr hrp hc hl hz hs (by omega)

end Hashes.Fsb
