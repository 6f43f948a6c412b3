import Verif.Proof.Leak.Basic
/- What equal observations tell about two runs. -/
namespace Hashes.Leak
variable {α β γ δ : Type}

/-- Two runs that return show equally many observations, and return values related by `R`. -/
def Num (R : α → β → Prop) (x : Leak α) (y : Leak β) : Prop :=
  ∀ a b, x.val = some a → y.val = some b → x.obs.length = y.obs.length ∧ R a b

/-- Two runs that return and show the same return values related by `Q`. -/
def Tells (Q : α → β → Prop) (x : Leak α) (y : Leak β) : Prop :=
  ∀ a b, x.val = some a → y.val = some b → x.obs = y.obs → Q a b

theorem bind_some {x : Leak α} {f : α → Leak β} {b : β} (h : (x >>= f).val = some b) :
    ∃ a, x.val = some a ∧ (f a).val = some b ∧ (x >>= f).obs = x.obs ++ (f a).obs := by
  rw [val_bind] at h
  rw [obs_bind]
  cases hx : x.val with
  | none => rw [hx] at h; cases h
  | some a => rw [hx] at h; exact ⟨a, rfl, h, rfl⟩

namespace Num
variable {R : α → β → Prop} {S : γ → δ → Prop}

theorem pure {a : α} {b : β} (h : R a b) : Num R (pure a) (pure b) := by
  rintro _ _ ⟨⟩ ⟨⟩; exact ⟨rfl, h⟩

theorem bind {x : Leak α} {y : Leak β} {f : α → Leak γ} {g : β → Leak δ} (h : Num R x y) (hf : ∀ a b, R a b → Num S (f a) (g b)) :
    Num S (x >>= f) (y >>= g) := by
  intro c d hc hd
  obtain ⟨a, ha, hfa, ho⟩ := bind_some hc
  obtain ⟨b, hb, hgb, ho'⟩ := bind_some hd
  obtain ⟨h1, h2⟩ := h a b ha hb
  obtain ⟨h3, h4⟩ := hf a b h2 c d hfa hgb
  exact ⟨by rw [ho, ho', List.length_append, List.length_append, h1, h3], h4⟩

theorem of_emit {o o' : Obs} {x : Option α} {y : Option β} (h : ∀ a b, x = some a → y = some b → R a b) : Num R (emit o x) (emit o' y) :=
  fun a b ha hb => ⟨rfl, h a b ha hb⟩

theorem emit {o o' : Obs} {x : Option α} {y : Option β} : Num (fun a b => x = some a ∧ y = some b) (emit o x) (Leak.emit o' y) :=
  of_emit fun _ _ ha hb => ⟨ha, hb⟩

theorem of_rel {x : Leak α} {y : Leak β} (h : Rel R x y) : Num R x y := by
  intro a b ha hb
  have := h.2
  rw [ha, hb] at this
  cases this with | some h' => exact ⟨by rw [h.1], h'⟩

theorem mono {R' : α → β → Prop} {x : Leak α} {y : Leak β} (h : Num R x y) (hR : ∀ a b, R a b → R' a b) : Num R' x y :=
  fun a b ha hb => ⟨(h a b ha hb).1, hR a b (h a b ha hb).2⟩

theorem fold {α' : Type} {f : α → α' → Leak α} {g : β → α' → Leak β} {l : List α'} {s : α} {t : β} (hs : R s t)
    (hf : ∀ s t a, R s t → Num R (f s a) (g t a)) : Num R (l.foldlM f s) (l.foldlM g t) := by
  induction l generalizing s t with
  | nil => exact pure hs
  | cons a l ih => rw [List.foldlM_cons, List.foldlM_cons]; exact bind (hf s t a hs) fun _ _ h => ih h

theorem loop {n : Nat} {f : α → Nat → Leak α} {g : β → Nat → Leak β} {s : α} {t : β} (hs : R s t)
    (hf : ∀ s t i, R s t → Num R (f s i) (g t i)) : Num R (Leak.loop n s f) (Leak.loop n t g) := fold hs hf
end Num

namespace Tells
variable {Q : α → β → Prop} {S : γ → δ → Prop}

theorem pure {a : α} {b : β} (h : Q a b) : Tells Q (pure a) (pure b) := by
  rintro _ _ ⟨⟩ ⟨⟩ _; exact h

/-- What was learnt is kept. -/
theorem const {p : Prop} {x : Leak α} {y : Leak β} (h : p) : Tells (fun _ _ => p) x y := fun _ _ _ _ _ => h

theorem bind {R : α → β → Prop} {x : Leak α} {y : Leak β} {f : α → Leak γ} {g : β → Leak δ} (hn : Num R x y) (h : Tells Q x y)
    (hf : ∀ a b, x.val = some a → y.val = some b → R a b → Q a b → Tells S (f a) (g b)) : Tells S (x >>= f) (y >>= g) := by
  intro c d hc hd he
  obtain ⟨a, ha, hfa, ho⟩ := bind_some hc
  obtain ⟨b, hb, hgb, ho'⟩ := bind_some hd
  obtain ⟨h1, h2⟩ := hn a b ha hb
  rw [ho, ho'] at he
  obtain ⟨e1, e2⟩ := List.append_inj he h1
  exact hf a b ha hb h2 (h a b ha hb e1) c d hfa hgb e2

/-- A step that tells nothing of interest. -/
theorem skip {R : α → β → Prop} {x : Leak α} {y : Leak β} {f : α → Leak γ} {g : β → Leak δ} (hn : Num R x y)
    (hf : ∀ a b, x.val = some a → y.val = some b → R a b → Tells S (f a) (g b)) : Tells S (x >>= f) (y >>= g) :=
  bind hn (Q := fun _ _ => True) (fun _ _ _ _ _ => trivial) fun a b ha hb hr _ => hf a b ha hb hr

/-- The index of an access is seen. -/
theorem idx {l : List α} {l' : List β} {i j : Nat} {f : α → Leak γ} {g : β → Leak δ}
    (hf : ∀ a b, i = j → l[i]? = some a → l'[j]? = some b → Tells S (f a) (g b)) : Tells S (Leak.idx l i >>= f) (Leak.idx l' j >>= g) := by
  refine bind (Q := fun _ _ => i = j) Num.emit ?_ ?_
  · intro a b _ _ h
    simp only [Leak.idx, Leak.emit, List.cons.injEq, Obs.index.injEq, and_true] at h
    exact h
  · intro a b ha hb _ h
    exact hf a b h ha hb

theorem upd {l : List α} {l' : List β} {i j : Nat} {v : α} {v' : β} {f : List α → Leak γ} {g : List β → Leak δ}
    (hf : i = j → i < l.length → j < l'.length → Tells S (f (l.set i v)) (g (l'.set j v'))) :
    Tells S (Leak.upd l i v >>= f) (Leak.upd l' j v' >>= g) := by
  refine bind (Q := fun _ _ => i = j) Num.emit ?_ ?_
  · intro a b _ _ h
    simp only [Leak.upd, Leak.emit, List.cons.injEq, Obs.index.injEq, and_true] at h
    exact h
  · intro a b ha hb _ h
    simp only [val_upd, Rs.upd] at ha hb
    split at ha
    · next h1 =>
      split at hb
      · next h2 => cases ha; cases hb; exact hf h h1 h2
      · cases hb
    · cases ha

/-- Loops: `Q i` holds before iteration `i`. -/
theorem fold_range {Q : Nat → α → β → Prop} {R : α → β → Prop} {n : Nat} {f : α → Nat → Leak α} {g : β → Nat → Leak β} {s : α} {t : β}
    (hR : R s t) (hQ : Q 0 s t) (hn : ∀ s t i, R s t → Num R (f s i) (g t i))
    (hf : ∀ s t i, i < n → Q i s t → Tells (Q (i + 1)) (f s i) (g t i)) : Tells (Q n) (Leak.loop n s f) (Leak.loop n t g) := by
  unfold Leak.loop
  have key : ∀ k, k ≤ n → Tells (Q k) ((List.range k).foldlM f s) ((List.range k).foldlM g t) := by
    intro k hk
    induction k with
    | zero => exact pure hQ
    | succ k ih =>
      rw [List.range_succ, List.foldlM_append, List.foldlM_append]
      refine bind (Num.fold hR hn) (ih (by omega)) fun a b _ _ hr hq => ?_
      simp only [List.foldlM_cons, List.foldlM_nil, bind_pure]
      exact hf a b k (by omega) hq
  exact key n (Nat.le_refl n)

theorem elim {x : Leak α} {y : Leak β} (h : Tells Q x y) {a : α} {b : β} (ha : x.val = some a) (hb : y.val = some b) (he : x.obs = y.obs) : Q a b :=
  h a b ha hb he
end Tells
end Hashes.Leak

namespace Hashes.Leak

theorem Num.any_emit {α β : Type} {o o' : Obs} {x : Option α} {y : Option β} : Num Any (Leak.emit o x) (Leak.emit o' y) := Num.of_emit fun _ _ _ _ => trivial

/-- Both runs show equally many observations. -/
macro "num" : tactic => `(tactic| repeat' first
  | exact Num.any_emit
  | exact Num.pure trivial
  | refine Num.loop (R := Any) trivial ?_
  | apply Num.bind
  | intro _)

end Hashes.Leak

namespace Hashes.Leak
/-- What the first iteration tells. -/
theorem Tells.loop_first {α β : Type} {p : Prop} {R : α → β → Prop} {n : Nat} {f : α → Nat → Leak α} {g : β → Nat → Leak β} {s : α} {t : β} (hn : 0 < n)
    (h : Num R (f s 0) (g t 0)) (ht : Tells (fun _ _ => p) (f s 0) (g t 0)) : Tells (fun _ _ => p) (Leak.loop n s f) (Leak.loop n t g) := by
  obtain ⟨m, rfl⟩ : ∃ m, n = m + 1 := ⟨n - 1, by omega⟩
  unfold Leak.loop
  rw [List.range_succ_eq_map, List.foldlM_cons, List.foldlM_cons]
  exact Tells.bind h ht fun _ _ _ _ _ h => Tells.const h
end Hashes.Leak

namespace Hashes.Leak
theorem Tells.fold_first {α β γ : Type} {p : Prop} {R : α → β → Prop} {c : γ} {l : List γ} {f : α → γ → Leak α} {g : β → γ → Leak β} {s : α} {t : β}
    (h : Num R (f s c) (g t c)) (ht : Tells (fun _ _ => p) (f s c) (g t c)) : Tells (fun _ _ => p) ((c :: l).foldlM f s) ((c :: l).foldlM g t) := by
  rw [List.foldlM_cons, List.foldlM_cons]
  exact Tells.bind h ht fun _ _ _ _ _ h => Tells.const h
end Hashes.Leak

namespace Hashes.Leak
variable {α β γ : Type}

theorem Num.mapM {f g : γ → Leak α} (h : ∀ c, Num Any (f c) (g c)) (l : List γ) : Num Any (l.mapM f) (l.mapM g) := by
  induction l with
  | nil => exact Num.pure trivial
  | cons c l ih =>
    rw [List.mapM_cons, List.mapM_cons]
    exact Num.bind (h c) fun _ _ _ => Num.bind ih fun _ _ _ => Num.pure trivial

/-- What each of a sequence of computations tells. -/
theorem Tells.mapM {p : γ → Prop} {f g : γ → Leak α} (hn : ∀ c, Num Any (f c) (g c)) {l : List γ}
    (h : ∀ c ∈ l, Tells (fun _ _ => p c) (f c) (g c)) : Tells (fun _ _ => ∀ c ∈ l, p c) (l.mapM f) (l.mapM g) := by
  induction l with
  | nil => exact Tells.const (by simp)
  | cons c l ih =>
    rw [List.mapM_cons, List.mapM_cons]
    refine Tells.bind (hn c) (h c (by simp)) fun _ _ _ _ _ h0 => Tells.bind (Num.mapM hn l) (ih fun c hc => h c (by simp [hc])) fun _ _ _ _ _ h1 => ?_
    exact Tells.const (by simp only [List.forall_mem_cons]; exact ⟨h0, h1⟩)

theorem Num.mapM' {α' β' : Type} {f : α' → Leak α} {g : β' → Leak β} (h : ∀ a b, Num Any (f a) (g b)) {l : List α'} {l' : List β'} (hl : Len l l') :
    Num Len (l.mapM f) (l'.mapM g) := by
  induction l generalizing l' with
  | nil => cases l' with
    | nil => exact Num.pure rfl
    | cons b l' => cases hl
  | cons a l ih => cases l' with
    | nil => cases hl
    | cons b l' =>
      rw [List.mapM_cons, List.mapM_cons]
      exact Num.bind (h a b) fun _ _ _ => Num.bind (ih (Nat.succ.inj hl)) fun _ _ h => Num.pure (congrArg (· + 1) h)

/-- What the beginning tells. -/
theorem Tells.first {δ : Type} {p : Prop} {R : α → β → Prop} {x : Leak α} {y : Leak β} {f : α → Leak γ} {g : β → Leak δ} (hn : Num R x y)
    (h : Tells (fun _ _ => p) x y) : Tells (fun _ _ => p) (x >>= f) (y >>= g) := Tells.bind hn h fun _ _ _ _ _ h => Tells.const h

theorem loop_pos {n : Nat} (hn : 0 < n) (s : α) (f : α → Nat → Leak α) :
    Leak.loop n s f = f s 0 >>= fun s => Leak.loop (n - 1) s fun s i => f s (i + 1) := by
  obtain ⟨m, rfl⟩ : ∃ m, n = m + 1 := ⟨n - 1, by omega⟩
  simp only [Leak.loop, List.range_succ_eq_map, List.foldlM_cons, List.foldlM_map, Nat.add_sub_cancel]

/-- Branches whose arms show nothing. -/
theorem Num.branch {P Q : Prop} [Decidable P] [Decidable Q] {a b : α} {c d : β} :
    Num Any (Leak.branch P (Pure.pure a) (Pure.pure b)) (Leak.branch Q (Pure.pure c) (Pure.pure d)) := by
  refine Num.bind (R := Any) Num.any_emit fun _ _ _ => ?_
  split <;> split <;> exact Num.pure trivial
end Hashes.Leak
