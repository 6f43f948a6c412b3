import Verif.Proof.PadInj
import Verif.Proof.Skein
import Verif.Proof.Vec256
import Verif.Props.Reduction
import Verif.Spec.Inputs
/- C63 for Skein. -/
namespace Hashes
open Spec

namespace Skein
variable {n : Nat} (E : Cipher n)

def words (b : Bytes) : Arr 64 n := Arr.ofFn n (wordLE 64 b)

/-- The step function of the chain: tweak and block. -/
def uStep (x : Arr 64 n) (tb : BitVec 128 × Bytes) : Arr 64 n :=
  (processBlock E ⟨tb.1.extractLsb' 0 64, tb.1.extractLsb' 64 64, x⟩ tb.2 0).x

/-- The cipher on byte strings. -/
def bytesCipher : Bytes → BitVec 128 → Bytes → Bytes := fun k t x =>
  oct (E (words k) (t.extractLsb' 0 64, t.extractLsb' 64 64) (words x))

theorem words_oct (a : Arr 64 n) : words (oct a) = a := Shabal.arr_round (by decide) a

theorem octets_bytesCipher : Octets E (bytesCipher E) := by
  intro k t x
  have h0 : (t.2 ++ t.1).extractLsb' 0 64 = t.1 := by
    apply BitVec.eq_of_getLsbD_eq; intro i hi
    rw [BitVec.getLsbD_extractLsb', BitVec.getLsbD_append]; simp [hi]
  have h1 : (t.2 ++ t.1).extractLsb' 64 64 = t.2 := by
    apply BitVec.eq_of_getLsbD_eq; intro i hi
    rw [BitVec.getLsbD_extractLsb', BitVec.getLsbD_append]; simp [hi]
  rw [bytesCipher, words_oct, words_oct, h0, h1]

theorem append_extract (t : BitVec 128) : t.extractLsb' 64 64 ++ t.extractLsb' 0 64 = t := by
  apply BitVec.eq_of_getLsbD_eq; intro i hi
  rw [BitVec.getLsbD_append, BitVec.getLsbD_extractLsb', BitVec.getLsbD_extractLsb']
  by_cases h : i < 64
  · simp [h]
  · simp only [h, if_false]
    rw [show 64 + (i - 64) = i by omega, decide_eq_true (show i - 64 < 64 by omega)]; simp

theorem oct_step (x : Arr 64 n) (tb : BitVec 128 × Bytes) (hb : tb.2.length = 8 * n) :
    oct (uStep E x tb) = Spec.Skein.xor (bytesCipher E (oct x) tb.1 tb.2) tb.2 := by
  rw [uStep, process_x (octets_bytesCipher E) _ _ hb]
  simp only [BitVec.add_zero, show (BitVec.ofNat 64 0) = 0#64 from rfl, append_extract]

theorem oct_foldl (l : List (BitVec 128 × Bytes)) (hl : ∀ b ∈ l, b.2.length = 8 * n) (x : Arr 64 n) :
    oct (l.foldl (uStep E) x) = l.foldl (fun H tb => Spec.Skein.xor (bytesCipher E H tb.1 tb.2) tb.2) (oct x) := by
  induction l generalizing x with
  | nil => rfl
  | cons b l ih =>
    rw [List.foldl_cons, List.foldl_cons, ih (fun b hb => hl b (List.mem_cons_of_mem _ hb)), oct_step E x b (hl b List.mem_cons_self)]

theorem length_blockAt (nb : Nat) (m : Bytes) (i : Nat) : (Spec.Skein.blockAt nb m i).length = nb := by
  simp [Spec.Skein.blockAt]; omega

theorem mem_input {m : Bytes} : ∀ b ∈ skeinInput (8 * n) m, b.2.length = 8 * n := by
  intro b hb
  rcases List.mem_append.1 hb with h | h
  · obtain ⟨i, _, rfl⟩ := List.mem_map.1 h
    exact length_blockAt _ _ _
  · rw [List.mem_singleton.1 h]; simp

theorem digest_chain (hn : 4 ≤ n) (m : Bytes) (hm : m.length < 2 ^ 64) :
    (core E (8 * n)).digest m = oct ((skeinInput (8 * n) m).foldl (uStep E) (init E (8 * n)).x) := by
  rw [digest_eq (octets_bytesCipher E) hn (8 * n) m hm, oct_foldl E _ mem_input, init_x (octets_bytesCipher E) hn,
    Nat.mul_div_cancel_left n (by decide), Nat.mul_mod_right, List.replicate_zero, List.append_nil, skeinInput, List.foldl_append,
    List.foldl_map]
  have h1 : (8 * n + 8 * n - 1) / (8 * n) = 1 := by
    rw [Nat.div_eq_iff (by omega)]; omega
  have hF : ∀ k t x, (bytesCipher E k t x).length = 8 * n := fun _ _ _ => length_oct _
  have h0 : leBytes 8 0 ++ List.replicate (8 * n - 8) 0 = List.replicate (8 * n) (0 : Byte) := by
    rw [show leBytes 8 0 = List.replicate 8 0 from rfl, List.replicate_append_replicate]; congr 1; omega
  rw [Spec.Skein.hash, Spec.Skein.output, h1, show List.range 1 = [0] from rfl, List.flatMap_cons, List.flatMap_nil, List.append_nil,
    List.take_take, Nat.min_self, ubi_single _ _ _ (leBytes 8 0) 63 (by simp; omega) (by omega)]
  simp only [length_leBytes, h0, List.foldl_cons, List.foldl_nil, Spec.Skein.xor]
  rw [List.take_of_length_le (by rw [List.length_zipWith, hF, List.length_replicate]; omega)]
  rfl

theorem tweak_pos {p p' type : Nat} {a b a' b' : Bool} (hp : p < 2 ^ 64) (hp' : p' < 2 ^ 64)
    (h : Spec.Skein.tweak type p a b = Spec.Skein.tweak type p' a' b') : p = p' := by
  have := congrArg (fun t => t.toNat % 2 ^ 96) h
  simp only [Spec.Skein.tweak, BitVec.toNat_ofNat] at this
  cases a <;> cases b <;> cases a' <;> cases b' <;> simp only [if_true, if_false, Bool.false_eq_true] at this <;> omega

theorem blockAt_getD (nb : Nat) (hb : 0 < nb) (m : Bytes) (j : Nat) : (Spec.Skein.blockAt nb m (j / nb)).getD (j % nb) 0 = m.getD j 0 := by
  have h1 := Nat.mod_lt j hb
  have h2 := Nat.div_add_mod j nb
  have hm : j / nb * nb + j % nb = j := by rw [Nat.mul_comm]; exact h2
  rw [Spec.Skein.blockAt]
  by_cases h : j < m.length
  · rw [getD_append_lt (by rw [List.length_take, List.length_drop]; omega)]
    simp only [List.getD_eq_getElem?_getD]
    rw [List.getElem?_take_of_lt h1, List.getElem?_drop, hm]
  · have hx : ((m.drop (j / nb * nb)).take nb).length ≤ j % nb := by rw [List.length_take, List.length_drop]; omega
    rw [getD_append_ge hx]
    simp only [List.getD_eq_getElem?_getD, List.getElem?_eq_none (show m.length ≤ j by omega), List.getElem?_replicate]
    split <;> rfl

theorem input_suffix {nb : Nat} (hb : 0 < nb) {m m' : Bytes} (hm : m.length < 2 ^ 64) (hm' : m'.length < 2 ^ 64) (hne : m ≠ m') :
    ¬ skeinInput nb m <:+ skeinInput nb m' := by
  rintro ⟨z, h⟩
  simp only [skeinInput, ← List.append_assoc] at h
  have h1 := (List.append_inj' h rfl).1
  have hk : ∀ m : Bytes, ∃ q, Spec.Skein.nBlocks nb m.length = q + 1 ∧ m.length ≤ (q + 1) * nb := fun m => by
    refine ⟨_, nBlocks_eq hb, ?_⟩
    have := Nat.div_add_mod (m.length - 1) nb
    have := Nat.mod_lt (m.length - 1) hb
    rw [Nat.add_mul, Nat.mul_comm]; omega
  have hl : m.length = m'.length := by
    obtain ⟨q, hq, hq'⟩ := hk m
    obtain ⟨r, hr, hr'⟩ := hk m'
    rw [hq, hr, List.range_succ, List.range_succ, List.map_append, List.map_append, ← List.append_assoc] at h1
    have h2 := (List.append_inj' h1 (by rw [List.length_map, List.length_map]; rfl)).2
    simp only [List.map_cons, List.map_nil, List.cons.injEq, and_true, Prod.mk.injEq, Nat.min_eq_left hq', Nat.min_eq_left hr'] at h2
    exact tweak_pos hm hm' h2.1
  have hz : z = [] := by
    have := congrArg List.length h1
    rw [List.length_append, List.length_map, List.length_map, List.length_range, List.length_range, hl] at this
    exact List.eq_nil_of_length_eq_zero (by omega)
  subst hz
  rw [List.nil_append, hl] at h1
  have h2 : ∀ i < Spec.Skein.nBlocks nb m'.length, Spec.Skein.blockAt nb m i = Spec.Skein.blockAt nb m' i := fun i hi =>
    (Prod.mk.inj (List.map_inj_left.1 h1 i (List.mem_range.2 hi))).2
  apply hne
  apply List.ext_getElem hl
  intro j hj hj'
  obtain ⟨r, hr, hr'⟩ := hk m'
  have := h2 (j / nb) (by rw [hr]; exact (Nat.div_lt_iff_lt_mul hb).2 (by omega))
  have h3 := blockAt_getD nb hb m j
  rw [this, blockAt_getD nb hb] at h3
  simp only [List.getD_eq_getElem?_getD, List.getElem?_eq_getElem hj, List.getElem?_eq_getElem hj', Option.getD_some] at h3
  exact h3.symm

theorem oct_inj {a b : Arr 64 n} (h : oct a = oct b) : a = b := by rw [← words_oct a, ← words_oct b, h]

end Skein
end Hashes
