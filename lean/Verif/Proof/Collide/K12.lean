import Verif.Props.K12
import Verif.Spec.Inputs
/- C63 for KangarooTwelve. -/
namespace Hashes
open Spec Spec.Keccak

theorem map_collision {α β : Type} (g : α → β) : ∀ {x y : List α}, x ≠ y → x.map g = y.map g → ∃ a ∈ x, ∃ b ∈ y, a ≠ b ∧ g a = g b := by
  intro x
  induction x with
  | nil => intro y hne h; exact absurd (List.map_eq_nil_iff.1 h.symm).symm hne
  | cons a x ih =>
    intro y hne h
    cases y with
    | nil => cases h
    | cons b y =>
      obtain ⟨h1, h2⟩ := List.cons.inj h
      by_cases hab : a = b
      · obtain ⟨c, hc, d, hd, h3⟩ := ih (fun e => hne (by rw [hab, e])) h2
        exact ⟨c, List.mem_cons_of_mem _ hc, d, List.mem_cons_of_mem _ hd, h3⟩
      · exact ⟨a, List.mem_cons_self, b, List.mem_cons_self, hab, h1⟩

theorem flatten_inj {k : Nat} : ∀ {x y : List Bytes}, (∀ a ∈ x, a.length = k) → (∀ a ∈ y, a.length = k) → x.length = y.length →
    x.flatten = y.flatten → x = y := by
  intro x
  induction x with
  | nil => intro y _ _ hl _; exact (List.eq_nil_of_length_eq_zero hl.symm).symm
  | cons a x ih =>
    intro y hx hy hl h
    cases y with
    | nil => cases hl
    | cons b y =>
      rw [List.flatten_cons, List.flatten_cons] at h
      obtain ⟨h1, h2⟩ := List.append_inj h (by rw [hx a List.mem_cons_self, hy b List.mem_cons_self])
      rw [h1, ih (fun a ha => hx a (List.mem_cons_of_mem _ ha)) (fun a ha => hy a (List.mem_cons_of_mem _ ha)) (Nat.succ.inj hl) h2]

namespace K12

theorem length_turbo (m : Bytes) (d : Byte) : (turboShake 128 m d 32).length = 32 := by
  rw [turboShake, ← spongeBytes_congr Sha3.f12_eq, spongeBytes, length_squeeze_head (by decide) _ (by rw [length_absorbBytes Sha3.perm12]; decide),
    List.length_take, length_absorbBytes Sha3.perm12]; rfl

/-- A long string is a first piece of 8192 bytes and at least one more. -/
theorem cut_long {S : Bytes} (h : 8192 < S.length) : ∃ S0 rest, Spec.K12.cut S = S0 :: rest ∧ S0.length = 8192 ∧ S0 ++ rest.flatten = S ∧
    rest.length ≤ S.length / 8192 := by
  obtain ⟨k, hk⟩ : ∃ k, (S.length - 1) / 8192 = k + 1 := ⟨(S.length - 1) / 8192 - 1, by omega⟩
  refine ⟨S.take 8192, blocks 8192 k (S.drop 8192) ++ [S.drop ((k + 1) * 8192)], ?_, by rw [List.length_take]; omega, ?_, ?_⟩
  · rw [Spec.K12.cut, hk]; rfl
  · rw [List.flatten_append, flatten_blocks, List.flatten_singleton, Nat.succ_mul, Nat.add_comm, ← List.drop_drop,
      List.take_append_drop, List.take_append_drop]
  · rw [List.length_append, length_blocks, List.length_singleton]; omega

/-- The nodes of two different inputs with the same KT128: two different ones with the same output. -/
theorem nodes_collide {m c m' c' : Bytes} {L : Nat} (hl : m.length + c.length < 2 ^ 64) (hl' : m'.length + c'.length < 2 ^ 64)
    (hne : (m, c) ≠ (m', c')) (h : Spec.K12.kt128 m c L = Spec.K12.kt128 m' c' L) :
    ∃ p ∈ kt128Nodes m c L, ∃ q ∈ kt128Nodes m' c' L, p ≠ q ∧ p.2.2 = q.2.2 ∧
      turboShake 128 p.1 p.2.1 p.2.2 = turboShake 128 q.1 q.2.1 q.2.2 := by
  have hle : ∀ x, x < 2 ^ 64 → (Spec.K12.lengthEncode x).length ≤ 9 := fun x hx => by
    obtain ⟨n, h8, -, -, e⟩ := lengthEncode_shape hx
    rw [← lengthEncode_eq, e]; simp; omega
  have hS : m ++ c ++ Spec.K12.lengthEncode c.length ≠ m' ++ c' ++ Spec.K12.lengthEncode c'.length := by
    intro e
    rw [← lengthEncode_eq, ← lengthEncode_eq] at e
    obtain ⟨e1, e2⟩ := C20_lengthEncode_suffixFree _ _ (by omega) (by omega) _ _ e
    obtain ⟨e3, e4⟩ := List.append_inj' e2 e1
    exact hne (by rw [e3, e4])
  have b1 : (m ++ c ++ Spec.K12.lengthEncode c.length).length < 2 ^ 65 := by
    have := hle c.length (by omega)
    rw [List.length_append, List.length_append]; omega
  have b2 : (m' ++ c' ++ Spec.K12.lengthEncode c'.length).length < 2 ^ 65 := by
    have := hle c'.length (by omega)
    rw [List.length_append, List.length_append]; omega
  rw [Spec.K12.kt128, Spec.K12.kt128] at h
  rw [kt128Nodes, kt128Nodes]
  generalize m ++ c ++ Spec.K12.lengthEncode c.length = S at hS h b1 ⊢
  generalize m' ++ c' ++ Spec.K12.lengthEncode c'.length = S' at hS h b2 ⊢
  simp only at h ⊢
  by_cases h1 : S.length ≤ 8192
  · by_cases h2 : S'.length ≤ 8192
    · rw [if_pos h1, if_pos h2] at h
      rw [if_pos h1, if_pos h2]
      exact ⟨_, List.mem_singleton_self _, _, List.mem_singleton_self _, fun e => hS (Prod.mk.inj e).1, rfl, h⟩
    · obtain ⟨T0, rest', k1, -, -, -⟩ := cut_long (S := S') (by omega)
      rw [if_pos h1, if_neg h2, k1] at h
      rw [if_pos h1, if_neg h2, k1]
      refine ⟨_, List.mem_singleton_self _, _, List.mem_append_right _ (List.mem_singleton_self _), fun e => ?_, rfl, h⟩
      exact absurd (Prod.mk.inj (Prod.mk.inj e).2).1 (by decide)
  · obtain ⟨S0, rest, j1, j2, j3, j4⟩ := cut_long (S := S) (by omega)
    by_cases h2 : S'.length ≤ 8192
    · rw [if_neg h1, if_pos h2, j1] at h
      rw [if_neg h1, if_pos h2, j1]
      refine ⟨_, List.mem_append_right _ (List.mem_singleton_self _), _, List.mem_singleton_self _, fun e => ?_, rfl, h⟩
      exact absurd (Prod.mk.inj (Prod.mk.inj e).2).1 (by decide)
    · obtain ⟨T0, rest', k1, k2, k3, k4⟩ := cut_long (S := S') (by omega)
      rw [if_neg h1, if_neg h2, j1, k1] at h
      rw [if_neg h1, if_neg h2, j1, k1]
      simp only at h ⊢
      by_cases hf : S0 ++ [0x03, 0, 0, 0, 0, 0, 0, 0] ++ (rest.map fun Si => turboShake 128 Si 0x0B 32).flatten ++
          Spec.K12.lengthEncode rest.length ++ [0xff, 0xff] =
          T0 ++ [0x03, 0, 0, 0, 0, 0, 0, 0] ++ (rest'.map fun Si => turboShake 128 Si 0x0B 32).flatten ++
          Spec.K12.lengthEncode rest'.length ++ [0xff, 0xff]
      · have f1 := (List.append_inj' hf rfl).1
        rw [← lengthEncode_eq, ← lengthEncode_eq] at f1
        obtain ⟨f2, f3⟩ := C20_lengthEncode_suffixFree _ _ (by omega) (by omega) _ _ f1
        rw [List.append_assoc, List.append_assoc] at f3
        obtain ⟨f4, f5⟩ := List.append_inj f3 (by rw [j2, k2])
        have f6 := (List.append_inj f5 rfl).2
        have hm : ∀ (l : List Bytes), ∀ a ∈ l.map fun Si => turboShake 128 Si 0x0B 32, a.length = 32 := fun l a ha => by
          obtain ⟨b, _, rfl⟩ := List.mem_map.1 ha
          exact length_turbo _ _
        have f7 := flatten_inj (hm rest) (hm rest') (by rw [List.length_map, List.length_map, f2]) f6
        obtain ⟨a, ha, b, hb, hab, e⟩ := map_collision _ (fun e => hS (by rw [← j3, ← k3, f4, e])) f7
        exact ⟨_, List.mem_append_left _ (List.mem_map.2 ⟨a, ha, rfl⟩), _, List.mem_append_left _ (List.mem_map.2 ⟨b, hb, rfl⟩),
          fun e => hab (Prod.mk.inj e).1, rfl, e⟩
      · exact ⟨_, List.mem_append_right _ (List.mem_singleton_self _), _, List.mem_append_right _ (List.mem_singleton_self _),
          fun e => hf (Prod.mk.inj e).1, rfl, h⟩

/-- A node of the code: TurboSHAKE128 with domain separation byte `d`, `L` bytes. -/
def codeTurbo (m : Bytes) (d : Byte) (L : Nat) : Option Bytes := (Sha3.turboShake128 d).map fun c =>
  ((Sha3.xof Sha3.f12 168).reads ((Sha3.xof Sha3.f12 168).reader (c.finish (c.update c.new m))) [L]).1

theorem codeTurbo_eq (m : Bytes) (d : Byte) (hd : 1 ≤ d.toNat ∧ d.toNat ≤ 127) (L : Nat) : codeTurbo m d L = some (turboShake 128 m d L) := by
  rw [codeTurbo]
  cases hc : Sha3.turboShake128 d with
  | none => exact absurd hd ((C22_new d).1.1 hc)
  | some c =>
    have := (C22_turboShake d [m] [L]).1 c hc
    simp only [List.flatten_singleton, List.sum_singleton] at this
    rw [← this]; rfl

theorem node_domain {m c : Bytes} {L : Nat} {p : Bytes × Byte × Nat} (h : p ∈ kt128Nodes m c L) : 1 ≤ p.2.1.toNat ∧ p.2.1.toNat ≤ 127 := by
  rw [kt128Nodes] at h
  simp only at h
  split at h
  · rw [List.mem_singleton.1 h]; simp only; decide
  · split at h
    · cases h
    · rcases List.mem_append.1 h with h | h
      · obtain ⟨a, _, rfl⟩ := List.mem_map.1 h; simp only; decide
      · rw [List.mem_singleton.1 h]; simp only; decide

end K12
end Hashes
