import Verif.Base.Rust
import Verif.Base.Vec
/- Lemmas about the run-time checks of Base/Rust.lean. -/
namespace Hashes.Rs
variable {α β σ : Type} {w n : Nat}

theorem idx_lt {a : List α} {i : Nat} (d : α) (h : i < a.length) : idx a i = some (a.getD i d) := by
  rw [idx, List.getD_eq_getElem?_getD, List.getElem?_eq_getElem h]; rfl

theorem upd_lt {a : List α} {i : Nat} {v : α} (h : i < a.length) : upd a i v = some (a.set i v) := if_pos h

theorem slice_le {a : List α} {i j : Nat} (h : i ≤ j) (hj : j ≤ a.length) : slice a i j = some ((a.drop i).take (j - i)) :=
  if_pos ⟨h, hj⟩

theorem copy_le {a v : List α} {i j : Nat} (h : i ≤ j) (hj : j ≤ a.length) (hv : v.length = j - i) :
    copy a i j v = some (a.take i ++ v ++ a.drop j) := if_pos ⟨h, hj, hv⟩

theorem copy_all {a v : List α} (h : v.length = a.length) : copy a 0 a.length v = some v := by
  rw [copy_le (Nat.zero_le _) (Nat.le_refl _) h]; simp

theorem shl_lt {x : BitVec w} {k : Nat} (h : k < w) : shl x k = some (x <<< k) := if_pos h
theorem shr_lt {x : BitVec w} {k : Nat} (h : k < w) : shr x k = some (x >>> k) := if_pos h
theorem usub_le {i j : Nat} (h : j ≤ i) : usub i j = some (i - j) := if_pos h
theorem check_of {p : Prop} [Decidable p] (h : p) : check p = some () := if_pos h

/-- A statement that succeeds. -/
theorem bind_ok {m : Option α} {v : α} {f : α → Option β} {r : Option β} (h : m = some v) (e : f v = r) :
    (m >>= f) = r := by rw [h]; exact e

theorem mapM_some {l : List α} {f : α → Option β} (g : α → β) (h : ∀ x ∈ l, f x = some (g x)) : l.mapM f = some (l.map g) := by
  induction l with
  | nil => rfl
  | cons x l ih =>
    rw [List.mapM_cons]
    exact bind_ok (h x List.mem_cons_self) <| bind_ok (ih fun y hy => h y (List.mem_cons_of_mem _ hy)) rfl

theorem foldlM_some {l : List α} {s : σ} {f : σ → α → Option σ} (g : σ → α → σ) (I : σ → Prop) (h0 : I s)
    (h : ∀ x ∈ l, ∀ t, I t → f t x = some (g t x) ∧ I (g t x)) : l.foldlM f s = some (l.foldl g s) ∧ I (l.foldl g s) := by
  induction l generalizing s with
  | nil => exact ⟨rfl, h0⟩
  | cons x l ih =>
    obtain ⟨e, i⟩ := h x List.mem_cons_self s h0
    rw [List.foldlM_cons, e]
    exact ih i fun y hy => h y (List.mem_cons_of_mem _ hy)

theorem loop_zero (s : σ) (f : σ → Nat → Option σ) : loop 0 s f = some s := rfl

theorem loop_succ (n : Nat) (s : σ) (f : σ → Nat → Option σ) : loop (n + 1) s f = (loop n s f).bind fun s => f s n := by
  rw [loop, List.range_succ, List.foldlM_append]
  show (loop n s f).bind _ = _
  congr 1
  funext t
  show (f t n).bind _ = _
  cases f t n <;> rfl

theorem loop_congr {n : Nat} {s : σ} {f f' : σ → Nat → Option σ} (h : ∀ i t, i < n → f t i = f' t i) : loop n s f = loop n s f' := by
  induction n with
  | zero => rfl
  | succ n ih =>
    rw [loop_succ, loop_succ, ih fun i t hi => h i t (Nat.lt_succ_of_lt hi)]
    congr 1
    funext t
    exact h n t (Nat.lt_succ_self n)

theorem loop_add (a b : Nat) (s : σ) (f : σ → Nat → Option σ) :
    loop (a + b) s f = (loop a s f).bind fun s => loop b s fun s i => f s (a + i) := by
  induction b with
  | zero => rw [Nat.add_zero]; cases loop a s f <;> rfl
  | succ b ih =>
    rw [← Nat.add_assoc, loop_succ, ih]
    cases loop a s f with
    | none => rfl
    | some t => rw [Option.bind_some, Option.bind_some, loop_succ]

/-- Two nested loops over `i * m + j` are one loop. -/
theorem loop_nest (n m : Nat) (s : σ) (f : σ → Nat → Option σ) :
    (loop n s fun s i => loop m s fun s j => f s (i * m + j)) = loop (n * m) s f := by
  induction n with
  | zero => rw [Nat.zero_mul]; rfl
  | succ n ih => rw [loop_succ, ih, Nat.succ_mul, loop_add]

/-- A loop whose body succeeds under an invariant is a fold. -/
theorem loop_inv {n : Nat} {s : σ} {f : σ → Nat → Option σ} (g : σ → Nat → σ) (I : Nat → σ → Prop) (h0 : I 0 s)
    (h : ∀ i t, i < n → I i t → f t i = some (g t i) ∧ I (i + 1) (g t i)) :
    loop n s f = some ((List.range n).foldl g s) ∧ I n ((List.range n).foldl g s) := by
  induction n with
  | zero => exact ⟨rfl, h0⟩
  | succ n ih =>
    obtain ⟨e, i⟩ := ih fun i t hi => h i t (Nat.lt_succ_of_lt hi)
    rw [loop_succ, e, List.range_succ, List.foldl_append]
    exact h n _ (Nat.lt_succ_self n) i

theorem loop_fold {n : Nat} {s : σ} {f : σ → Nat → Option σ} (g : σ → Nat → σ) (I : σ → Prop) (h0 : I s)
    (h : ∀ i t, i < n → I t → f t i = some (g t i) ∧ I (g t i)) :
    loop n s f = some ((List.range n).foldl g s) :=
  (loop_inv g (fun _ => I) h0 h).1

theorem loop_fold' {n : Nat} {s : σ} {f : σ → Nat → Option σ} (g : σ → Nat → σ) (h : ∀ i t, i < n → f t i = some (g t i)) :
    loop n s f = some ((List.range n).foldl g s) :=
  loop_fold g (fun _ => True) trivial fun i t hi _ => ⟨h i t hi, trivial⟩

/-- Invariant only: useful when the result is computed otherwise. -/
theorem loop_ind {n : Nat} {s : σ} {f : σ → Nat → Option σ} (I : Nat → σ → Prop) (h0 : I 0 s)
    (h : ∀ i t, i < n → I i t → ∃ u, f t i = some u ∧ I (i + 1) u) : ∃ u, loop n s f = some u ∧ I n u := by
  induction n with
  | zero => exact ⟨s, rfl, h0⟩
  | succ n ih =>
    obtain ⟨u, e, i⟩ := ih fun i t hi => h i t (Nat.lt_succ_of_lt hi)
    rw [loop_succ, e]
    exact h n u (Nat.lt_succ_self n) i

theorem getD_set (d : α) (a : List α) (i j : Nat) (v : α) :
    (a.set i v).getD j d = if i = j ∧ j < a.length then v else a.getD j d := by
  simp only [List.getD_eq_getElem?_getD, List.getElem?_set]
  by_cases h : i = j
  · subst h
    by_cases hl : i < a.length
    · simp [hl]
    · simp [hl]
  · simp [h]

theorem ext_getD (d : α) {a b : List α} (h : a.length = b.length) (e : ∀ i < a.length, a.getD i d = b.getD i d) : a = b := by
  apply List.ext_getElem h
  intro i h1 h2
  have := e i h1
  rwa [List.getD_eq_getElem?_getD, List.getD_eq_getElem?_getD, List.getElem?_eq_getElem h1, List.getElem?_eq_getElem h2] at this

theorem getD_map_range (d : α) (g : Nat → α) {n i : Nat} (h : i < n) : ((List.range n).map g).getD i d = g i := by
  simp [List.getD_eq_getElem?_getD, h]

theorem map_getD (d : α) (a : List α) : (List.range a.length).map (fun i => a.getD i d) = a :=
  ext_getD d (by simp) fun i h => getD_map_range d _ (by simpa using h)

theorem foldl_congr_mem {l : List α} {s : σ} {f g : σ → α → σ} (h : ∀ x ∈ l, ∀ t, f t x = g t x) : l.foldl f s = l.foldl g s := by
  induction l generalizing s with
  | nil => rfl
  | cons x l ih =>
    rw [List.foldl_cons, List.foldl_cons, h x List.mem_cons_self]
    exact ih fun y hy => h y (List.mem_cons_of_mem _ hy)

/-- Walking through the indices `l` of an array is walking through its values. -/
theorem foldl_getD (d : α) {n : Nat} (g : Nat → α) (f : σ → α → σ) (l : List Nat) (h : ∀ i ∈ l, i < n) (s : σ) :
    l.foldl (fun t i => f t (((List.range n).map g).getD i d)) s = (l.map g).foldl f s := by
  rw [List.foldl_map]
  exact foldl_congr_mem fun i hi t => by rw [getD_map_range d g (h i hi)]

/-- A list of known length as a list of that many values. -/
theorem exists_range [Inhabited α] {a : List α} {n : Nat} (h : a.length = n) : ∃ f : Nat → α, a = (List.range n).map f :=
  ⟨fun i => a.getD i default, by subst h; exact (map_getD default a).symm⟩

theorem getD_append (d : α) (a b : List α) (i : Nat) :
    (a ++ b).getD i d = if i < a.length then a.getD i d else b.getD (i - a.length) d := by
  simp only [List.getD_eq_getElem?_getD, List.getElem?_append]; split <;> rfl

theorem getD_take (d : α) (a : List α) (n i : Nat) : (a.take n).getD i d = if i < n then a.getD i d else d := by
  simp only [List.getD_eq_getElem?_getD, List.getElem?_take]; split <;> rfl

theorem getD_drop (d : α) (a : List α) (n i : Nat) : (a.drop n).getD i d = a.getD (n + i) d := by
  simp only [List.getD_eq_getElem?_getD, List.getElem?_drop]

theorem getD_zipWith (d : α) (f : α → α → α) {a b : List α} {i : Nat} (ha : i < a.length) (hb : i < b.length) :
    (List.zipWith f a b).getD i d = f (a.getD i d) (b.getD i d) := by
  simp [List.getD_eq_getElem?_getD, List.getElem?_zipWith, ha, hb]

/-- `for i in 0..n { a[i] = g(i, a[i]) }` -/
theorem loop_modify (d : α) {n : Nat} {a : List α} {f : List α → Nat → Option (List α)} (g : Nat → α → α) (hl : a.length = n)
    (h : ∀ i l, i < n → l.length = n → l.getD i d = a.getD i d → f l i = some (l.set i (g i (l.getD i d)))) :
    loop n a f = some ((List.range n).map fun i => g i (a.getD i d)) := by
  obtain ⟨u, e, hu, hlo, -⟩ := loop_ind (n := n) (s := a) (f := f)
    (fun k l => l.length = n ∧ (∀ j < k, l.getD j d = g j (a.getD j d)) ∧ ∀ j, k ≤ j → l.getD j d = a.getD j d)
    ⟨hl, by simp, by simp⟩ fun i t hi ⟨h1, h2, h3⟩ => by
      refine ⟨_, h i t hi h1 (h3 i (Nat.le_refl i)), by simpa using h1, fun j hj => ?_, fun j hj => ?_⟩
      · rw [getD_set]
        by_cases hij : i = j
        · subst hij; rw [if_pos ⟨rfl, by omega⟩, h3 i (Nat.le_refl i)]
        · rw [if_neg (by simp [hij]), h2 j (by omega)]
      · rw [getD_set, if_neg (by omega), h3 j (by omega)]
  rw [e]
  congr 1
  refine ext_getD d (by simpa using hu) fun i hi => ?_
  rw [getD_map_range d _ (by omega), hlo i (by omega)]

/-- `for i in 0..n { a[i] = g(i) }` -/
theorem loop_fill {n : Nat} {a : List α} {f : List α → Nat → Option (List α)} (g : Nat → α) (hl : a.length = n)
    (h : ∀ i l, i < n → l.length = n → f l i = some (l.set i (g i))) : loop n a f = some ((List.range n).map g) := by
  cases n with
  | zero => cases a with
    | nil => rfl
    | cons => simp at hl
  | succ n => exact loop_modify (g 0) (fun i _ => g i) hl fun i l hi hll _ => h i l hi hll

/-- `for j in 0..n { a[i] = g(j, a[i]) }` -/
theorem loop_cell (d : α) {n i : Nat} {a : List α} {f : List α → Nat → Option (List α)} (g : Nat → α → α) (hi : i < a.length)
    (h : ∀ j l, j < n → l.length = a.length → f l j = some (l.set i (g j (l.getD i d)))) :
    loop n a f = some (a.set i ((List.range n).foldl (fun x j => g j x) (a.getD i d))) := by
  induction n with
  | zero =>
    rw [loop_zero, List.range_zero, List.foldl_nil]
    congr 1
    exact ext_getD d (by simp) fun j hj => by
      rw [getD_set]
      by_cases h : i = j
      · subst h; rw [if_pos ⟨rfl, hi⟩]
      · rw [if_neg (by simp [h])]
  | succ n ih =>
    rw [loop_succ, ih fun j l hj => h j l (Nat.lt_succ_of_lt hj), Option.bind_some, h n _ (Nat.lt_succ_self n) (by simp),
      getD_set, if_pos ⟨rfl, hi⟩, List.set_set, List.range_succ, List.foldl_append]
    rfl

theorem load_eq {n k : Nat} {a : List β} {b : List α} {conv : List α → Option β} (g : Nat → β) (hk : 0 < k) (ha : a.length = n)
    (hb : b.length = k * n) (h : ∀ i < n, conv ((b.drop (k * i)).take k) = some (g i)) :
    load a b k conv = some ((List.range n).map g) := by
  have hd : b.length / k = n := by rw [hb, Nat.mul_div_cancel_left _ hk]
  have key : ∀ (m : Nat) (pre : List β) (r : List β) (c : List α), r.length = m → c = b.drop (k * pre.length) →
      pre.length + m = n →
      (r.zip (blocks k m c)).foldlM (fun (s : List β × Nat) (p : β × List α) => do
        let v ← conv p.2
        pure (s.1.set s.2 v, s.2 + 1)) (pre ++ r, pre.length) = some (pre ++ (List.range' pre.length m).map g, n) := by
    intro m
    induction m with
    | zero =>
      intro pre r c hr _ hn
      rw [List.length_eq_zero_iff.mp hr]
      simp only [List.zip_nil_left, List.foldlM_nil, List.range'_zero, List.map_nil]
      rw [Nat.add_zero] at hn
      rw [hn]; rfl
    | succ m ih =>
      intro pre r c hr hc hn
      cases r with
      | nil => simp at hr
      | cons x r =>
        simp only [blocks, List.zip_cons_cons, List.foldlM_cons]
        rw [hc, h pre.length (by omega)]
        have e : (pre ++ x :: r).set pre.length (g pre.length) = (pre ++ [g pre.length]) ++ r := by simp
        have := ih (pre ++ [g pre.length]) r ((b.drop (k * pre.length)).drop k) (by simpa using hr)
          (by rw [List.drop_drop, List.length_append, List.length_singleton, Nat.mul_add, Nat.mul_one]) (by simp; omega)
        rw [List.length_append, List.length_singleton] at this
        show List.foldlM _ ((pre ++ x :: r).set pre.length (g pre.length), pre.length + 1) _ = _
        rw [e, this, List.range'_succ]
        simp
  have := key n [] a b ha (by simp) (by simp)
  rw [load, chunks, hd]
  rw [List.length_nil, List.nil_append] at this
  rw [this]
  simp [List.range_eq_range']

theorem load_le {n w : Nat} {a : List (BitVec w)} {b : Bytes} (hw : 0 < w / 8) (ha : a.length = n) (hb : b.length = w / 8 * n) :
    load a b (w / 8) (fromLe w) = some ((List.range n).map (wordLE w b)) :=
  load_eq _ hw ha hb fun i hi => if_pos (by
    have := Nat.mul_le_mul_left (w / 8) (show i + 1 ≤ n from hi)
    rw [Nat.mul_succ] at this
    simp only [List.length_take, List.length_drop, hb]; omega)

theorem load_be {n w : Nat} {a : List (BitVec w)} {b : Bytes} (hw : 0 < w / 8) (ha : a.length = n) (hb : b.length = w / 8 * n) :
    load a b (w / 8) (fromBe w) = some ((List.range n).map (wordBE w b)) :=
  load_eq _ hw ha hb fun i hi => if_pos (by
    have := Nat.mul_le_mul_left (w / 8) (show i + 1 ≤ n from hi)
    rw [Nat.mul_succ] at this
    simp only [List.length_take, List.length_drop, hb]; omega)

theorem store_eq {n k : Nat} {a : List α} {b : List β} {conv : α → List β} (hk : 0 < k) (ha : a.length = n)
    (hb : b.length = k * n) (h : ∀ x, (conv x).length = k) : store b a k conv = some (a.flatMap conv) := by
  have hd : b.length / k = n := by rw [hb, Nat.mul_div_cancel_left _ hk]
  have key : ∀ (m : Nat) (i : Nat) (pre : List β) (r : List α) (c post : List β), r.length = m → pre.length = k * i →
      post.length = k * m →
      ((blocks k m c).zip r).foldlM (fun (s : List β × Nat) (p : List β × α) => do
        let b ← copy s.1 (k * s.2) (k * s.2 + k) (conv p.2)
        pure (b, s.2 + 1)) (pre ++ post, i) = some (pre ++ r.flatMap conv, i + m) := by
    intro m
    induction m with
    | zero =>
      intro i pre r c post hr hp hc
      rw [List.length_eq_zero_iff.mp hr, List.length_eq_zero_iff.mp (show post.length = 0 by omega)]; rfl
    | succ m ih =>
      intro i pre r c post hr hp hc
      cases r with
      | nil => simp at hr
      | cons x r =>
        have hkm : k * (m + 1) = k * m + k := Nat.mul_succ _ _
        simp only [blocks, List.zip_cons_cons, List.foldlM_cons]
        rw [copy_le (by omega) (by simp; omega) (by rw [h]; omega)]
        have e1 : (pre ++ post).take (k * i) = pre := by rw [← hp]; simp
        have e2 : (pre ++ post).drop (k * i + k) = post.drop k := by
          rw [← hp, List.drop_append, List.drop_eq_nil_of_le (by omega), List.nil_append]
          congr 1; omega
        rw [e1, e2]
        have := ih (i + 1) (pre ++ conv x) r (c.drop k) (post.drop k) (by simpa using hr)
          (by rw [List.length_append, h, hp, Nat.mul_succ]) (by rw [List.length_drop]; omega)
        show List.foldlM _ (pre ++ conv x ++ post.drop k, i + 1) _ = _
        rw [this]
        simp only [List.flatMap_cons, List.append_assoc]
        rw [show i + 1 + m = i + (m + 1) by omega]
  have := key n 0 [] a b b ha (by simp) (by simpa using hb)
  rw [store, chunks, hd]
  rw [List.nil_append] at this
  rw [this]; rfl

/-- Rewrite a list from the left, threading a state. -/
def scan (φ : Nat → σ → α → α × σ) : Nat → List α → σ → List α × σ
  | _, [], t => ([], t)
  | i, x :: l, t => ((φ i t x).1 :: (scan φ (i + 1) l (φ i t x).2).1, (scan φ (i + 1) l (φ i t x).2).2)

/-- `for i in 0..n { (a[i], t) = φ(i, t, a[i]) }` -/
theorem loop_scan (d : α) {n : Nat} {a : List α} {t : σ} {f : List α × σ → Nat → Option (List α × σ)}
    (φ : Nat → σ → α → α × σ) (hl : a.length = n)
    (h : ∀ i l u, i < n → l.length = n → f (l, u) i = some (l.set i (φ i u (l.getD i d)).1, (φ i u (l.getD i d)).2)) :
    loop n (a, t) f = some (scan φ 0 a t) := by
  have key : ∀ (m : Nat) (pre r : List α) (u : σ), r.length = m → pre.length + m = n →
      (List.range' pre.length m).foldlM f (pre ++ r, u) =
        some (pre ++ (scan φ pre.length r u).1, (scan φ pre.length r u).2) := by
    intro m
    induction m with
    | zero =>
      intro pre r u hr _
      rw [List.length_eq_zero_iff.mp hr]; simp [scan]
    | succ m ih =>
      intro pre r u hr hn
      cases r with
      | nil => simp at hr
      | cons x r =>
        rw [List.range'_succ, List.foldlM_cons, h _ _ _ (by omega) (by simp at hr ⊢; omega)]
        have e : (pre ++ x :: r).getD pre.length d = x := by simp [List.getD_eq_getElem?_getD]
        rw [e]
        have e2 : (pre ++ x :: r).set pre.length (φ pre.length u x).1 = (pre ++ [(φ pre.length u x).1]) ++ r := by simp
        rw [e2]
        have := ih (pre ++ [(φ pre.length u x).1]) r (φ pre.length u x).2 (by simpa using hr) (by simp; omega)
        rw [List.length_append, List.length_singleton] at this
        refine this.trans ?_
        simp [scan]
  have := key n [] a t hl (by simp)
  rw [List.length_nil, ← List.range_eq_range', List.nil_append] at this
  rw [loop, this]; rfl

theorem idx_mem {a : List α} {i : Nat} {x : α} (h : idx a i = some x) : x ∈ a := List.mem_of_getElem? h

theorem getD_mem {a : List α} {i : Nat} (d : α) (h : i < a.length) : a.getD i d ∈ a := idx_mem (idx_lt d h)

theorem and_ff (x : W64) : (x &&& 0xff).toNat < 256 := by
  rw [BitVec.toNat_and]; exact Nat.lt_of_le_of_lt Nat.and_le_right (by decide)

theorem idx_v8 (v : V8 α) {i : Nat} (h : i < 8) : idx v.toList i = some (v.get i) := by
  match i, h with
  | 0, _ | 1, _ | 2, _ | 3, _ | 4, _ | 5, _ | 6, _ | 7, _ => rfl

theorem length_v8 (v : V8 α) : v.toList.length = 8 := rfl

/-- `for i in 0..8 { a[i] = g(i) }` -/
theorem fill_v8 {a : List α} {f : List α → Nat → Option (List α)} (g : Nat → α) (hl : a.length = 8)
    (h : ∀ i l, i < 8 → l.length = 8 → f l i = some (l.set i (g i))) : loop 8 a f = some (V8.ofFn g).toList :=
  loop_fill g hl h

/-- `for i in 0..8 { a[i] = g(i, a[i]) }` -/
theorem modify_v8 {a : V8 α} {f : List α → Nat → Option (List α)} (g : Nat → α → α)
    (h : ∀ i l, i < 8 → l.length = 8 → idx l i = some (a.get i) → f l i = some (l.set i (g i (a.get i)))) :
    loop 8 a.toList f = some (V8.ofFn fun i => g i (a.get i)).toList := by
  have key (i : Nat) (hi : i < 8) : a.toList.getD i a.x0 = a.get i := by
    have := (idx_v8 a hi).symm.trans (idx_lt a.x0 (a := a.toList) (by rw [length_v8]; exact hi))
    exact (Option.some.inj this).symm
  rw [loop_modify a.x0 g (length_v8 a) fun i l hi hl e => by
    rw [e, key i hi]
    exact h i l hi hl (by rw [idx_lt a.x0 (by omega), e, key i hi])]
  rfl

theorem load_v8_le {a : List W64} {b : Bytes} (ha : a.length = 8) (hb : b.length = 64) :
    load a b 8 (fromLe 64) = some (V8.ofFn (wordLE 64 b)).toList := load_le (w := 64) (by decide) ha hb

theorem idx_arr (a : Arr w n) {i : Nat} (h : i < n) : idx a.toList i = some (a.get i) :=
  idx_lt 0 (by rw [show a.toList.length = n from a.2]; exact h)

theorem upd_arr (a : Arr w n) {i : Nat} (v : BitVec w) (h : i < n) : upd a.toList i v = some (a.set i v).toList :=
  upd_lt (by rw [show a.toList.length = n from a.2]; exact h)

theorem fill_arr {n : Nat} {a : List (BitVec w)} {f : List (BitVec w) → Nat → Option (List (BitVec w))} (g : Nat → BitVec w)
    (hl : a.length = n) (h : ∀ i l, i < n → l.length = n → f l i = some (l.set i (g i))) :
    loop n a f = some (Arr.ofFn n g).toList := loop_fill g hl h

theorem modify_arr {n : Nat} {a : Arr w n} {f : List (BitVec w) → Nat → Option (List (BitVec w))} (g : Nat → BitVec w → BitVec w)
    (h : ∀ i l, i < n → l.length = n → idx l i = some (a.get i) → f l i = some (l.set i (g i (a.get i)))) :
    loop n a.toList f = some (Arr.ofFn n fun i => g i (a.get i)).toList :=
  loop_modify 0 g a.2 fun i l hi hl e => by
    rw [e]; exact h i l hi hl (by rw [idx_lt 0 (by omega), e]; rfl)

end Hashes.Rs
