import Verif.Checked.SoftPtr
import Verif.Proof.Raw
/- The raw pointers of the portable code stay inside their objects. -/
namespace Hashes
open Rs Raw

theorem Raw.readAt_le {o : Obj} {w align i : Nat} (ha : o.addr % align = 0) (hd : align ∣ w / 8) (h : w / 8 * (i + 1) ≤ o.data.length) :
    o.readAt w align i = some (wordLE w o.data i) := by
  rw [Nat.mul_succ] at h
  refine bind_ok (add_le (by omega)) <| bind_ok (check_of ⟨?_, Nat.le_add_right _ _, ?_⟩) ?_
  · rw [Nat.add_mod, ha, Nat.mod_eq_zero_of_dvd (Nat.dvd_trans hd (Nat.dvd_mul_right _ i))]; simp
  · show _ ≤ o.addr + o.data.length
    omega
  · rw [Nat.add_sub_cancel_left]; rfl

namespace Sha256

theorem readK {addr : Nat} (ha : addr % 4 = 0) {i : Nat} (h : i < 64) : (⟨addr, bytesOfWordsLE K32⟩ : Obj).readAt 32 4 i = some (k32 i) := by
  have hl : K32.length = 64 := by decide
  refine (readAt_le ha (by decide) ?_).trans (congrArg some (Simd.wordLE_words K32 (by omega)))
  show _ ≤ (bytesOfWordsLE K32).length
  rw [Raw.length_bytesOfWordsLE]
  omega

theorem softRounds4C_eq {addr : Nat} (ha : addr % 4 = 0) (r : Regs) (w : V4 W32) (i : Nat) (h : i < 16) :
    softRounds4C ⟨addr, bytesOfWordsLE K32⟩ r w i = some (rounds4 r w i) :=
  bind_ok (bind_ok (readK ha (by omega)) <| bind_ok (readK ha (by omega)) <| bind_ok (readK ha (by omega)) <|
    bind_ok (readK ha (by omega)) rfl) rfl

theorem digestBlockU32C_eq {addr : Nat} (ha : addr % 4 = 0) (s : V8 W32) (b : List W32) :
    digestBlockU32C ⟨addr, bytesOfWordsLE K32⟩ s b = some (digestBlockU32 s fun i => b.getD i 0) :=
  bind_ok (softRounds4C_eq ha _ _ 0 (by decide)) <| bind_ok (softRounds4C_eq ha _ _ 1 (by decide)) <|
  bind_ok (softRounds4C_eq ha _ _ 2 (by decide)) <| bind_ok (softRounds4C_eq ha _ _ 3 (by decide)) <|
  bind_ok (softRounds4C_eq ha _ _ 4 (by decide)) <| bind_ok (softRounds4C_eq ha _ _ 5 (by decide)) <|
  bind_ok (softRounds4C_eq ha _ _ 6 (by decide)) <| bind_ok (softRounds4C_eq ha _ _ 7 (by decide)) <|
  bind_ok (softRounds4C_eq ha _ _ 8 (by decide)) <| bind_ok (softRounds4C_eq ha _ _ 9 (by decide)) <|
  bind_ok (softRounds4C_eq ha _ _ 10 (by decide)) <| bind_ok (softRounds4C_eq ha _ _ 11 (by decide)) <|
  bind_ok (softRounds4C_eq ha _ _ 12 (by decide)) <| bind_ok (softRounds4C_eq ha _ _ 13 (by decide)) <|
  bind_ok (softRounds4C_eq ha _ _ 14 (by decide)) <| bind_ok (softRounds4C_eq ha _ _ 15 (by decide)) rfl

theorem digestBlockU32_congr (s : V8 W32) {f g : Nat → W32} (h : ∀ i < 16, f i = g i) : digestBlockU32 s f = digestBlockU32 s g := by
  unfold digestBlockU32
  rw [h 0 (by decide), h 1 (by decide), h 2 (by decide), h 3 (by decide), h 4 (by decide), h 5 (by decide), h 6 (by decide),
    h 7 (by decide), h 8 (by decide), h 9 (by decide), h 10 (by decide), h 11 (by decide), h 12 (by decide), h 13 (by decide),
    h 14 (by decide), h 15 (by decide)]

theorem compressBlockC_eq {addr : Nat} (ha : addr % 4 = 0) (s : V8 W32) (o : Obj) (h : o.data.length = 64) :
    compressBlockC ⟨addr, bytesOfWordsLE K32⟩ s o = some (digestBlockU32 s (toU32s o.data)) := by
  refine bind_ok (load_be (w := 32) (n := 16) (by decide) (by simp) h) ((digestBlockU32C_eq ha s _).trans ?_)
  rw [digestBlockU32_congr s fun i hi => getD_map_range 0 (wordBE 32 o.data) hi]
  rfl

theorem compressSoftC_eq {addr : Nat} (ha : addr % 4 = 0) (s : V8 W32) (blks : List Obj) (hb : ∀ o ∈ blks, o.data.length = 64) :
    compressSoftC addr s blks = some (compressSoft s (blks.map Obj.data)) := foldlM_blocks (compressBlockC_eq ha) blks hb s

end Sha256

namespace Sha512

theorem readK {addr : Nat} (ha : addr % 8 = 0) {i : Nat} (h : i < 80) : (⟨addr, bytesOfWordsLE K64⟩ : Obj).readAt 64 8 i = some (k64 i) := by
  have hl : K64.length = 80 := by decide
  refine (readAt_le ha (by decide) ?_).trans (congrArg some (Simd.wordLE_words64 K64 (by omega)))
  show _ ≤ (bytesOfWordsLE K64).length
  rw [Raw.length_bytesOfWordsLE]
  omega

theorem addRkC_eq {addr : Nat} (ha : addr % 8 = 0) (w : V2 W64) (i : Nat) (h : i < 40) :
    addRkC ⟨addr, bytesOfWordsLE K64⟩ w i = some (addRk w i) :=
  bind_ok (readK ha (by omega)) <| bind_ok (readK ha (by omega)) rfl

theorem digestBlockU64C_eq {addr : Nat} (ha : addr % 8 = 0) (s : V8 W64) (b : List W64) :
    digestBlockU64C ⟨addr, bytesOfWordsLE K64⟩ s b = some (digestBlockU64 s fun i => b.getD i 0) := by
  unfold digestBlockU64C digestBlockU64
  simp -zeta -zetaDelta -zetaUnused only [addRkC_eq ha, Nat.reduceLT, Option.bind_eq_bind, Option.bind_some, Option.pure_def]
  lift_lets +merge
  intros
  rfl

theorem digestBlockU64_congr (s : V8 W64) {f g : Nat → W64} (h : ∀ i < 16, f i = g i) : digestBlockU64 s f = digestBlockU64 s g := by
  unfold digestBlockU64
  rw [h 0 (by decide), h 1 (by decide), h 2 (by decide), h 3 (by decide), h 4 (by decide), h 5 (by decide), h 6 (by decide),
    h 7 (by decide), h 8 (by decide), h 9 (by decide), h 10 (by decide), h 11 (by decide), h 12 (by decide), h 13 (by decide),
    h 14 (by decide), h 15 (by decide)]

theorem compressBlockC_eq {addr : Nat} (ha : addr % 8 = 0) (s : V8 W64) (o : Obj) (h : o.data.length = 128) :
    compressBlockC ⟨addr, bytesOfWordsLE K64⟩ s o = some (digestBlockU64 s (toU64s o.data)) := by
  refine bind_ok (load_be (w := 64) (n := 16) (by decide) (by simp) h) ((digestBlockU64C_eq ha s _).trans ?_)
  rw [digestBlockU64_congr s fun i hi => getD_map_range 0 (wordBE 64 o.data) hi]
  rfl

theorem compressSoftC_eq {addr : Nat} (ha : addr % 8 = 0) (s : V8 W64) (blks : List Obj) (hb : ∀ o ∈ blks, o.data.length = 128) :
    compressSoftC addr s blks = some (compressSoft s (blks.map Obj.data)) := foldlM_blocks (compressBlockC_eq ha) blks hb s

end Sha512

namespace Jh

theorem swapC_eq {j : Nat} (h : j < 7) : swapC j = some (swap j) := by
  match j, h with
  | 0, _ | 1, _ | 2, _ | 3, _ | 4, _ | 5, _ | 6, _ => rfl

theorem chunks_rc : chunks 7 rcNat = (List.range 6).map fun c => (List.range 7).map fun j => rcNat.getD (7 * c + j) 0 := by decide +kernel

theorem roundC_eq (c j : Nat) (y : V8 W128) (hj : j < 7) :
    roundC ((List.range 7).map fun j => rcNat.getD (7 * c + j) 0) y j = some (round y (7 * c + j)) := by
  refine bind_ok (v := rcNat.getD (7 * c + j) 0) ?_ <| bind_ok (swapC_eq hj) ?_
  · rw [idx_lt 0 (by simpa using hj), getD_map_range 0 _ hj]
  · unfold round
    rw [show (7 * c + j) % 7 = j by omega]
    rfl

theorem foldlM_rc (m : Nat) (y : V8 W128) :
    ((List.range m).map fun c => (List.range 7).map fun j => rcNat.getD (7 * c + j) 0).foldlM (fun y rc => loop 7 y (roundC rc)) y =
      some ((List.range (7 * m)).foldl round y) := by
  induction m with
  | zero => rfl
  | succ m ih =>
    rw [List.range_succ (n := m), List.map_append, List.foldlM_append, ih]
    refine bind_ok rfl ?_
    rw [List.map_singleton, List.foldlM_cons]
    refine bind_ok (loop_fold' (fun y j => round y (7 * m + j)) fun j y hj => roundC_eq m j y hj) ?_
    show some _ = _
    rw [Nat.mul_succ, List.range_add, List.foldl_append, List.foldl_map]

theorem e8C_eq (y : V8 W128) : e8C y = some ((List.range 42).foldl round y) := by
  unfold e8C
  rw [chunks_rc]
  exact foldlM_rc 6 y

theorem f8C_eq (y : V8 W128) (o : Obj) (h : o.data.length = 64) : f8C y o = some (f8 y o.data) := by
  have r (i : Nat) (hi : i < 4) : o.readAt 128 1 i = some (wordLE 128 o.data i) :=
    readAt_le (Nat.mod_one _) (Nat.one_dvd _) (by omega)
  refine bind_ok (r 0 (by decide)) <| bind_ok (r 1 (by decide)) <| bind_ok (r 2 (by decide)) <| bind_ok (r 3 (by decide)) <|
    bind_ok (e8C_eq _) <| bind_ok (r 0 (by decide)) <| bind_ok (r 1 (by decide)) <| bind_ok (r 2 (by decide)) <|
    bind_ok (r 3 (by decide)) ?_
  unfold f8
  rw [Option.pure_def]

end Jh
end Hashes
