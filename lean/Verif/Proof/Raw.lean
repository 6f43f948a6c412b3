import Verif.Base.Raw
import Verif.Proof.Rust
/- Accesses inside an object are defined. -/
namespace Hashes.Raw
open Rs

theorem add_le {o : Obj} {n : Nat} (h : n ≤ o.data.length) : add o.region o.addr n = some (o.addr + n) :=
  if_pos (.inr ⟨Nat.le_refl _, Nat.add_le_add_left h _⟩)

theorem loadu_le {o : Obj} {n : Nat} (h : n + 16 ≤ o.data.length) : o.loadu (o.addr + n) = some (Simd.load o.data n) := by
  refine bind_ok (check_of ⟨Nat.mod_one _, Nat.le_add_right _ _, ?_⟩) ?_
  · show o.addr + n + 16 ≤ o.addr + o.data.length
    omega
  · rw [Nat.add_sub_cancel_left]; rfl

theorem loadu_zero {o : Obj} (h : 16 ≤ o.data.length) : o.loadu o.addr = some (Simd.load o.data 0) :=
  loadu_le (n := 0) (by omega)

theorem loadAt_le {o : Obj} {k i : Nat} (h : k * i + 16 ≤ o.data.length) : o.loadAt k i = some (Simd.load o.data (k * i)) :=
  bind_ok (add_le (by omega)) (loadu_le h)

theorem storeu_le {o : Obj} {n : Nat} {v : V128} (h : n + 16 ≤ o.data.length) :
    o.storeu (o.addr + n) v = some ⟨o.addr, o.data.take n ++ Simd.store v ++ o.data.drop (n + 16)⟩ := by
  refine bind_ok (check_of ⟨Nat.mod_one _, Nat.le_add_right _ _, ?_⟩) ?_
  · show o.addr + n + 16 ≤ o.addr + o.data.length
    omega
  · rw [Nat.add_sub_cancel_left]; rfl

theorem storeu_zero {o : Obj} {v : V128} (h : 16 ≤ o.data.length) :
    o.storeu o.addr v = some ⟨o.addr, Simd.store v ++ o.data.drop 16⟩ := by
  have := storeu_le (o := o) (n := 0) (v := v) (by omega)
  rw [Nat.add_zero, List.take_zero, List.nil_append, Nat.zero_add] at this
  exact this

theorem storeAt_le {o : Obj} {k i : Nat} {v : V128} (h : k * i + 16 ≤ o.data.length) :
    o.storeAt k i v = some ⟨o.addr, o.data.take (k * i) ++ Simd.store v ++ o.data.drop (k * i + 16)⟩ :=
  bind_ok (add_le (by omega)) (storeu_le h)

theorem loadSlice_le {o : Obj} {k i j : Nat} (hij : i ≤ j) (hj : k * j ≤ o.data.length) (h : k * i + 16 ≤ k * j) :
    o.loadSlice k i j = some (Simd.load o.data (k * i)) :=
  bind_ok (check_of ⟨hij, hj⟩) <| bind_ok (check_of ⟨Nat.mod_one _, Nat.le_refl _, by show _ ≤ o.addr + k * j; omega⟩) <| loadu_le (by omega)

theorem storeSlice_le {o : Obj} {k i j : Nat} {v : V128} (hij : i ≤ j) (hj : k * j ≤ o.data.length) (h : k * i + 16 ≤ k * j) :
    o.storeSlice k i j v = some ⟨o.addr, o.data.take (k * i) ++ Simd.store v ++ o.data.drop (k * i + 16)⟩ :=
  bind_ok (check_of ⟨hij, hj⟩) <| bind_ok (check_of ⟨Nat.mod_one _, Nat.le_refl _, by show _ ≤ o.addr + k * j; omega⟩) <| storeu_le (by omega)

theorem loadElem_le {o : Obj} {k i : Nat} (hk : k ≤ 16) (h : k * i + 16 ≤ o.data.length) :
    o.loadElem k i = some (Simd.load o.data (k * i)) :=
  bind_ok (check_of (by omega)) (loadu_le h)

theorem length_bytesOfWordsLE {w : Nat} (ws : List (BitVec w)) : (bytesOfWordsLE ws).length = w / 8 * ws.length := by
  unfold bytesOfWordsLE
  induction ws with
  | nil => rfl
  | cons a ws ih => rw [List.flatMap_cons, List.length_append, ih, length_leBytes, List.length_cons, Nat.mul_succ, Nat.add_comm]

theorem drop_bytesOfWordsLE {w : Nat} (ws : List (BitVec w)) (i : Nat) : (bytesOfWordsLE ws).drop (w / 8 * i) = bytesOfWordsLE (ws.drop i) := by
  induction i generalizing ws with
  | zero => rfl
  | succ i ih =>
    cases ws with
    | nil => simp [bytesOfWordsLE]
    | cons a ws =>
      rw [List.drop_succ_cons, ← ih, Nat.mul_succ]
      unfold bytesOfWordsLE
      rw [List.flatMap_cons, List.drop_append, List.drop_of_length_le (by rw [length_leBytes]; omega), List.nil_append, length_leBytes,
        Nat.add_sub_cancel]

theorem load_drop (b : Bytes) (n m : Nat) : Simd.load (b.drop n) m = Simd.load b (n + m) := by
  unfold Simd.load
  congr 1
  funext i
  rw [List.getD_eq_getElem?_getD, List.getD_eq_getElem?_getD, List.getElem?_drop, Nat.add_assoc]

/-- Sixteen bytes of a table from element `i` on. -/
theorem load_words {w : Nat} (ws : List (BitVec w)) (i : Nat) :
    Simd.load (bytesOfWordsLE ws) (w / 8 * i) = Simd.load (bytesOfWordsLE (ws.drop i)) 0 := by
  rw [← drop_bytesOfWordsLE, load_drop, Nat.add_zero]

/-- Loops over blocks with their addresses. -/
theorem foldlM_blocks {σ : Type} {f : σ → Obj → Option σ} {g : σ → Bytes → σ} {n : Nat}
    (h : ∀ s o, o.data.length = n → f s o = some (g s o.data)) (blks : List Obj) (hb : ∀ o ∈ blks, o.data.length = n) (s : σ) :
    blks.foldlM f s = some ((blks.map Obj.data).foldl g s) := by
  induction blks generalizing s with
  | nil => rfl
  | cons o blks ih =>
    rw [List.foldlM_cons, h s o (hb o (by simp)), List.map_cons, List.foldl_cons]
    exact ih (fun o ho => hb o (by simp [ho])) _

end Hashes.Raw
