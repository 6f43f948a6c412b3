import Verif.Proof.Rust
import Verif.Checked.Sm3
/- The checked transcription of SM3 never panics and agrees with the model. -/
namespace Hashes.Sm3
open Rs

variable {x : List W32} (hx : x.length = 16)
include hx

theorem w1C_eq (i : Nat) : w1C x i = some (w1 x i) := idx_lt 0 (by
  rw [hx]; exact Nat.lt_of_le_of_lt Nat.and_le_right (by decide))

theorem w2C_eq {i : Nat} (hi : 13 ≤ i) : w2C x i = some (w2 x i) ∧ (w2 x i).2.length = 16 := by
  refine ⟨?_, by simpa [w2] using hx⟩
  exact bind_ok (w1C_eq hx i) <| bind_ok (usub_le (by omega)) <| bind_ok (w1C_eq hx _) <| bind_ok (usub_le (by omega)) <|
    bind_ok (w1C_eq hx _) <| bind_ok (usub_le (by omega)) <| bind_ok (w1C_eq hx _) <| bind_ok (usub_le (by omega)) <|
    bind_ok (w1C_eq hx _) <| bind_ok (upd_lt (by rw [hx]; exact Nat.lt_of_le_of_lt Nat.and_le_right (by decide))) rfl

theorem fetchC_eq (a : Acc) {i : Nat} (h : a = .w2 → 13 ≤ i) : fetchC a x i = some (fetch a x i) ∧ (fetch a x i).2.length = 16 := by
  cases a with
  | w1 => exact ⟨bind_ok (w1C_eq hx i) rfl, hx⟩
  | w2 => exact w2C_eq hx (h rfl)

theorem stepC_eq (v : V8 W32) (l : Line) (ht : l.t < 64) (h : l.acc = .w2 → 13 ≤ l.w') :
    stepC (v, x) l = some (step (v, x) l) ∧ (step (v, x) l).2.length = 16 :=
  ⟨bind_ok (idx_lt 0 (by exact ht)) <| bind_ok (w1C_eq hx _) <| bind_ok (fetchC_eq hx l.acc h).1 rfl, (fetchC_eq hx l.acc h).2⟩

omit hx in
theorem lines_ok : ∀ l ∈ lines, l.t < 64 ∧ (l.acc = .w2 → 13 ≤ l.w') := by decide +kernel

omit hx in
theorem compressU32C_eq (state : V8 W32) {block : List W32} (hb : block.length = 16) :
    compressU32C state.toList block = some (compressU32 state block).toList := by
  obtain ⟨e, -⟩ := foldlM_some (l := lines) (s := (state, block)) (f := stepC) step (fun s => s.2.length = 16) hb
    fun l hl s hs => stepC_eq hs s.1 l (lines_ok l hl).1 (lines_ok l hl).2
  rw [compressU32]
  generalize lines.foldl step (state, block) = r at *
  exact bind_ok rfl <| bind_ok rfl <| bind_ok rfl <| bind_ok rfl <| bind_ok rfl <| bind_ok rfl <| bind_ok rfl <| bind_ok rfl <|
    bind_ok e rfl

omit hx in
theorem compressC_eq (state : V8 W32) {block : Bytes} (hb : block.length = 64) :
    compressC state.toList block = some (compress state block).toList :=
  bind_ok (load_be (w := 32) (n := 16) (by decide) (by simp) hb) (compressU32C_eq state (by simp))

end Hashes.Sm3
