import Verif.Proof.Perm.Basic
import Verif.Proof.Perm.Tables
import Verif.Proof.Streebog
/- Helpers for C62: linear maps of eight bytes; products in GF(2^8) are additive. -/
namespace Hashes.Perm
open Function Spec

/-! ### Products in GF(2)[x]/(poly) are additive in each factor -/

theorem bitOf_xor (x y i : Nat) : bitOf (x ^^^ y) i = bitOf x i ^^^ bitOf y i := by
  show ((x ^^^ y) >>> i) % 2 = (x >>> i) % 2 ^^^ (y >>> i) % 2
  rw [Nat.shiftRight_xor_distrib]
  exact Nat.xor_mod_two_pow (n := 1)

theorem bitOf_cases (x i : Nat) : bitOf x i = 0 ∨ bitOf x i = 1 := by
  have : bitOf x i < 2 := Nat.mod_lt _ (by decide)
  omega

theorem mul_bit (x y i c : Nat) : bitOf (x ^^^ y) i * c = bitOf x i * c ^^^ bitOf y i * c := by
  rw [bitOf_xor]
  rcases bitOf_cases x i with h | h <;> rcases bitOf_cases y i with h' | h' <;> simp [h, h']

theorem bit_mul (b i c d : Nat) : bitOf b i * (c ^^^ d) = bitOf b i * c ^^^ bitOf b i * d := by
  rcases bitOf_cases b i with h | h <;> simp [h]

theorem xor_swap (a b c d : Nat) : a ^^^ b ^^^ (c ^^^ d) = a ^^^ c ^^^ (b ^^^ d) := by
  rw [Nat.xor_assoc, Nat.xor_assoc, ← Nat.xor_assoc b, ← Nat.xor_assoc c, Nat.xor_comm b c]

theorem clmul_right (a x y : Nat) : clmul a (x ^^^ y) = clmul a x ^^^ clmul a y := by
  have key : ∀ (l : List Nat) (r s : Nat),
      l.foldl (fun r i => Nat.xor r (Nat.mul (bitOf (x ^^^ y) i) (Nat.shiftLeft a i))) (r ^^^ s) =
      l.foldl (fun r i => Nat.xor r (Nat.mul (bitOf x i) (Nat.shiftLeft a i))) r ^^^
      l.foldl (fun r i => Nat.xor r (Nat.mul (bitOf y i) (Nat.shiftLeft a i))) s := by
    intro l
    induction l with
    | nil => intro r s; rfl
    | cons i l ih =>
      intro r s
      rw [List.foldl_cons, List.foldl_cons, List.foldl_cons, ← ih]
      congr 1
      show r ^^^ s ^^^ bitOf (x ^^^ y) i * (a <<< i) = r ^^^ bitOf x i * (a <<< i) ^^^ (s ^^^ bitOf y i * (a <<< i))
      rw [mul_bit, xor_swap]
  exact key _ 0 0

theorem clmul_left (b x y : Nat) : clmul (x ^^^ y) b = clmul x b ^^^ clmul y b := by
  have key : ∀ (l : List Nat) (r s : Nat),
      l.foldl (fun r i => Nat.xor r (Nat.mul (bitOf b i) (Nat.shiftLeft (x ^^^ y) i))) (r ^^^ s) =
      l.foldl (fun r i => Nat.xor r (Nat.mul (bitOf b i) (Nat.shiftLeft x i))) r ^^^
      l.foldl (fun r i => Nat.xor r (Nat.mul (bitOf b i) (Nat.shiftLeft y i))) s := by
    intro l
    induction l with
    | nil => intro r s; rfl
    | cons i l ih =>
      intro r s
      rw [List.foldl_cons, List.foldl_cons, List.foldl_cons, ← ih]
      congr 1
      show r ^^^ s ^^^ bitOf b i * ((x ^^^ y) <<< i) = r ^^^ bitOf b i * (x <<< i) ^^^ (s ^^^ bitOf b i * (y <<< i))
      rw [Nat.shiftLeft_xor_distrib, bit_mul, xor_swap]
  exact key _ 0 0

theorem clmod_xor (poly x y : Nat) : clmod poly (x ^^^ y) = clmod poly x ^^^ clmod poly y := by
  have key : ∀ (l : List Nat) (r s : Nat),
      l.foldl (fun r i => Nat.xor r (Nat.mul (bitOf r (Nat.add i 8)) (Nat.shiftLeft poly i))) (r ^^^ s) =
      l.foldl (fun r i => Nat.xor r (Nat.mul (bitOf r (Nat.add i 8)) (Nat.shiftLeft poly i))) r ^^^
      l.foldl (fun r i => Nat.xor r (Nat.mul (bitOf r (Nat.add i 8)) (Nat.shiftLeft poly i))) s := by
    intro l
    induction l with
    | nil => intro r s; rfl
    | cons i l ih =>
      intro r s
      rw [List.foldl_cons, List.foldl_cons, List.foldl_cons, ← ih]
      congr 1
      show r ^^^ s ^^^ bitOf (r ^^^ s) (i + 8) * (poly <<< i) =
        r ^^^ bitOf r (i + 8) * (poly <<< i) ^^^ (s ^^^ bitOf s (i + 8) * (poly <<< i))
      rw [mul_bit, xor_swap]
  exact key _ x y

theorem ofNat_xor (w x y : Nat) : BitVec.ofNat w (x ^^^ y) = BitVec.ofNat w x ^^^ BitVec.ofNat w y := by
  apply BitVec.eq_of_toNat_eq
  simp

theorem gmul_right (poly : Nat) (c : Byte) : Additive fun x : Byte => gmul poly c x := by
  intro x y
  show BitVec.ofNat 8 _ = BitVec.ofNat 8 _ ^^^ BitVec.ofNat 8 _
  rw [BitVec.toNat_xor, clmul_right, clmod_xor, ofNat_xor]

theorem gmul_left (poly : Nat) (c : Byte) : Additive fun x : Byte => gmul poly x c := by
  intro x y
  show BitVec.ofNat 8 _ = BitVec.ofNat 8 _ ^^^ BitVec.ofNat 8 _
  rw [BitVec.toNat_xor, clmul_left, clmod_xor, ofNat_xor]

theorem reverse_additive {w : Nat} : Additive fun x : BitVec w => x.reverse := by
  intro x y
  apply BitVec.eq_of_getLsbD_eq
  intro i hi
  show (x ^^^ y).reverse.getLsbD i = (x.reverse ^^^ y.reverse).getLsbD i
  simp only [BitVec.getLsbD_reverse, BitVec.getLsbD_xor, BitVec.getMsbD_xor]

/-! ### Linear maps of eight bytes -/

theorem xorSum_xor (n : Nat) (f g : Nat → Byte) : xorSum n (fun k => f k ^^^ g k) = xorSum n f ^^^ xorSum n g := by
  induction n with
  | zero => exact (show (0 : Byte) = 0 ^^^ 0 by decide)
  | succ n ih =>
    rw [Streebog.xorSum_succ, Streebog.xorSum_succ, Streebog.xorSum_succ, ih]
    ac_rfl

theorem xorSum_comm (n m : Nat) (f : Nat → Nat → Byte) :
    xorSum n (fun i => xorSum m fun j => f i j) = xorSum m fun j => xorSum n fun i => f i j := by
  induction n with
  | zero => exact (Streebog.xorSum_zero m _ fun _ _ => rfl).symm
  | succ n ih =>
    rw [Streebog.xorSum_succ, ih, ← xorSum_xor]
    exact Streebog.xorSum_congr fun j _ => (Streebog.xorSum_succ n fun i => f i j).symm

theorem Additive.xorSum {f : Byte → Byte} (h : Additive f) (n : Nat) (g : Nat → Byte) :
    f (xorSum n g) = xorSum n fun k => f (g k) := by
  induction n with
  | zero => exact h.zero
  | succ n ih => rw [Streebog.xorSum_succ, Streebog.xorSum_succ, h, ih]

theorem additive_xorSum (n : Nat) (f : Nat → Byte → Byte) (h : ∀ k, Additive (f k)) : Additive fun x => Spec.xorSum n fun k => f k x := by
  intro x y
  show Spec.xorSum n _ = _
  rw [← xorSum_xor]
  exact Streebog.xorSum_congr fun k _ => h k x y

theorem additive_zero : Additive fun _ : Byte => (0 : Byte) := fun _ _ => show (0 : Byte) = 0 ^^^ 0 by decide

/-- `out_i = ⊕_k m_ik(a_k)` -/
def lin (m : Nat → Nat → Byte → Byte) (a : Nat → Byte) (i : Nat) : Byte := Spec.xorSum 8 fun k => m i k (a k)

/-- A linear map with a left inverse (checked on single bits) is injective. -/
theorem lin_inj (m n : Nat → Nat → Byte → Byte) (hm : ∀ i k, Additive (m i k)) (hn : ∀ i k, Additive (n i k))
    (hD : ∀ i < 8, ∀ j < 8, ∀ b < 8, Spec.xorSum 8 (fun k => n i k (m k j (BitVec.twoPow 8 b))) = if i = j then BitVec.twoPow 8 b else 0)
    {a a' : Nat → Byte} (h : ∀ i < 8, lin m a i = lin m a' i) : ∀ i < 8, a i = a' i := by
  have key : ∀ (a : Nat → Byte), ∀ i < 8, lin n (lin m a) i = a i := by
    intro a i hi
    have e1 : lin n (lin m a) i = Spec.xorSum 8 fun j => Spec.xorSum 8 fun k => n i k (m k j (a j)) := by
      rw [← xorSum_comm]
      exact Streebog.xorSum_congr fun k _ => (hn i k).xorSum 8 _
    have D : ∀ j < 8, ∀ x : Byte, Spec.xorSum 8 (fun k => n i k (m k j x)) = if i = j then x else 0 := by
      intro j hj x
      have hadd : Additive fun x : Byte => Spec.xorSum 8 (fun k => n i k (m k j x)) :=
        additive_xorSum 8 _ fun k => (hn i k).comp (hm k j)
      by_cases hij : i = j
      · simp only [if_pos hij]
        have := hadd.id_of_basis (fun b hb => by have := hD i hi j hj b hb; rwa [if_pos hij] at this) x
        exact this
      · simp only [if_neg hij]
        have h2 : Additive fun x : Byte => x ^^^ Spec.xorSum 8 (fun k => n i k (m k j x)) := additive_id.xor hadd
        have := h2.id_of_basis (fun b hb => by
          have := hD i hi j hj b hb
          rw [if_neg hij] at this
          simp only [this]
          exact BitVec.xor_zero) x
        have := congrArg (x ^^^ ·) this
        simpa [← BitVec.xor_assoc] using this
    rw [e1, Streebog.xorSum_congr fun j hj => D j hj (a j)]
    rw [Streebog.xorSum_single 8 i hi _ fun k _ hk => if_neg fun e => hk e.symm, if_pos rfl]
  intro i hi
  rw [← key a i hi, ← key a' i hi]
  exact Streebog.xorSum_congr fun k hk => by rw [h k hk]

end Hashes.Perm
