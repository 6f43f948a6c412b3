import Verif.Base.Leak
/- Forgetting the observations; runs that show the same. -/
namespace Hashes.Leak
variable {α β γ δ σ τ : Type} {w : Nat}

/-! ### Forgetting the observations -/

@[simp] theorem val_pure (a : α) : (pure a : Leak α).val = some a := rfl
@[simp] theorem obs_pure (a : α) : (pure a : Leak α).obs = [] := rfl
@[simp] theorem val_bind (x : Leak α) (f : α → Leak β) : (x >>= f).val = x.val >>= fun a => (f a).val := by
  show (Leak.bind x f).val = _
  cases h : x.val <;> simp [Leak.bind, h]
theorem obs_bind (x : Leak α) (f : α → Leak β) : (x >>= f).obs = x.obs ++ (x.val.map fun a => (f a).obs).getD [] := by
  show (Leak.bind x f).obs = _
  cases h : x.val <;> simp [Leak.bind, h]
theorem ext' {x y : Leak α} (h : x.val = y.val) (h' : x.obs = y.obs) : x = y := by cases x; cases y; cases h; cases h'; rfl
instance : LawfulMonad Leak := LawfulMonad.mk' Leak
  (id_map := fun x => by
    refine ext' ?_ ?_
    · show (x >>= fun a => pure a).val = _
      rw [val_bind]; cases x.val <;> rfl
    · show (x >>= fun a => pure a).obs = _
      rw [obs_bind]; cases x.val <;> simp)
  (pure_bind := fun a f => by
    refine ext' ?_ ?_
    · rw [val_bind]; rfl
    · rw [obs_bind]; rfl)
  (bind_assoc := fun x f g => by
    refine ext' ?_ ?_
    · simp only [val_bind]; cases x.val <;> rfl
    · simp only [obs_bind, val_bind]
      cases x.val with
      | none => simp
      | some a => simp [List.append_assoc])
@[simp] theorem val_emit (o : Obs) (x : Option α) : (emit o x).val = x := rfl
@[simp] theorem val_panic : (panic : Leak α).val = none := rfl
@[simp] theorem val_branch (p : Prop) [Decidable p] (a b : Leak α) : (branch p a b).val = if p then a.val else b.val := by
  simp only [branch, val_bind, val_emit]
  show (if p then a else b).val = _
  split <;> rfl
@[simp] theorem val_idx (a : List α) (i : Nat) : (idx a i).val = Rs.idx a i := rfl
@[simp] theorem val_upd (a : List α) (i : Nat) (v : α) : (upd a i v).val = Rs.upd a i v := rfl
@[simp] theorem val_slice (a : List α) (i j : Nat) : (slice a i j).val = Rs.slice a i j := rfl
@[simp] theorem val_copy (a : List α) (i j : Nat) (v : List α) : (copy a i j v).val = Rs.copy a i j v := rfl
@[simp] theorem val_usub (i j : Nat) : (usub i j).val = Rs.usub i j := rfl
@[simp] theorem val_add (x y : BitVec w) : (add x y).val = Rs.add x y := rfl
@[simp] theorem val_sub (x y : BitVec w) : (sub x y).val = Rs.sub x y := rfl
@[simp] theorem val_mul (x y : BitVec w) : (mul x y).val = Rs.mul x y := rfl
@[simp] theorem val_shl (x : BitVec w) (k : Nat) : (shl x k).val = Rs.shl x k := rfl
@[simp] theorem val_shr (x : BitVec w) (k : Nat) : (shr x k).val = Rs.shr x k := rfl
@[simp] theorem val_check (p : Prop) [Decidable p] : (check p).val = Rs.check p := rfl
@[simp] theorem val_fromLe (c : Bytes) : (fromLe w c).val = Rs.fromLe w c := rfl
@[simp] theorem val_fromBe (c : Bytes) : (fromBe w c).val = Rs.fromBe w c := rfl
@[simp] theorem val_foldlM (f : σ → α → Leak σ) (l : List α) (s : σ) :
    (l.foldlM f s).val = l.foldlM (fun s a => (f s a).val) s := by
  induction l generalizing s with
  | nil => rfl
  | cons a l ih => simp only [List.foldlM_cons, val_bind, ih]
@[simp] theorem val_mapM (f : α → Leak β) (l : List α) : (l.mapM f).val = l.mapM fun a => (f a).val := by
  induction l with
  | nil => rfl
  | cons a l ih => rw [List.mapM_cons, List.mapM_cons, val_bind]; simp only [val_bind, ih, val_pure]; rfl
@[simp] theorem val_loop (n : Nat) (s : σ) (f : σ → Nat → Leak σ) : (loop n s f).val = Rs.loop n s fun s i => (f s i).val := val_foldlM _ _ _
@[simp] theorem val_loopRev (n : Nat) (s : σ) (f : σ → Nat → Leak σ) : (loopRev n s f).val = Rs.loopRev n s fun s i => (f s i).val :=
  val_foldlM _ _ _
@[simp] theorem val_load (a : List β) (b : List α) (k : Nat) (conv : List α → Leak β) :
    (load a b k conv).val = Rs.load a b k fun c => (conv c).val := by
  simp only [load, Rs.load, val_bind, val_foldlM, val_pure, val_emit, Option.map_eq_bind, Option.bind_eq_bind, Function.comp_def, Option.bind_some]
  rfl
@[simp] theorem val_store (b : List β) (a : List α) (k : Nat) (conv : α → List β) : (store b a k conv).val = Rs.store b a k conv := by
  simp only [store, Rs.store, val_bind, val_foldlM, val_pure, val_copy, Option.map_eq_bind, Option.bind_eq_bind, Function.comp_def]
  rfl

/-! ### Runs that show the same -/

/-- Two runs with the same observations that both panic or both return, with values related by `R`. -/
def Rel (R : α → β → Prop) (x : Leak α) (y : Leak β) : Prop := x.obs = y.obs ∧ Option.Rel R x.val y.val

/-- Nothing is required of the values: they may be secret. -/
def Any (_ : α) (_ : β) : Prop := True
/-- Lists of the same length. -/
def Len (a : List α) (b : List β) : Prop := a.length = b.length

/-- Lists of the same length with related elements. -/
inductive Each (Q : α → β → Prop) : List α → List β → Prop
  | nil : Each Q [] []
  | cons {a b l l'} : Q a b → Each Q l l' → Each Q (a :: l) (b :: l')

theorem any (a : α) (b : β) : Any a b := trivial

namespace Rel
variable {R : α → β → Prop} {S : γ → δ → Prop}

theorem pure {a : α} {b : β} (h : R a b) : Rel R (pure a) (pure b) := ⟨rfl, .some h⟩

theorem bind {x : Leak α} {y : Leak β} {f : α → Leak γ} {g : β → Leak δ} (h : Rel R x y) (hf : ∀ a b, R a b → Rel S (f a) (g b)) :
    Rel S (x >>= f) (y >>= g) := by
  obtain ⟨ho, hv⟩ := h
  rw [Rel, obs_bind, obs_bind, val_bind, val_bind, ho]
  cases hx : x.val with
  | none =>
    rw [hx] at hv
    cases hy : y.val with
    | none => exact ⟨rfl, .none⟩
    | some b => rw [hy] at hv; cases hv
  | some a =>
    rw [hx] at hv
    cases hy : y.val with
    | none => rw [hy] at hv; cases hv
    | some b =>
      rw [hy] at hv
      cases hv with
      | some h =>
        obtain ⟨h1, h2⟩ := hf a b h
        exact ⟨by simp [h1], h2⟩

theorem refl (x : Leak α) : Rel Eq x x := by
  refine ⟨rfl, ?_⟩
  cases x.val with
  | none => exact .none
  | some a => exact .some rfl

theorem mono {R' : α → β → Prop} {x : Leak α} {y : Leak β} (h : Rel R x y) (hR : ∀ a b, R a b → R' a b) : Rel R' x y := by
  refine ⟨h.1, ?_⟩
  have := h.2
  cases hx : x.val <;> cases hy : y.val <;> rw [hx, hy] at this <;> cases this
  · exact .none
  · next h => exact .some (hR _ _ h)

theorem of_emit {o : Obs} {x : Option α} {y : Option β} (h : Option.Rel R x y) : Rel R (emit o x) (emit o y) := ⟨rfl, h⟩

theorem branch {p : Prop} [Decidable p] {q : Prop} [Decidable q] {a b : Leak α} {c d : Leak β} (hpq : p ↔ q)
    (h1 : Rel R a c) (h2 : Rel R b d) : Rel R (Leak.branch p a b) (Leak.branch q c d) := by
  have hd : decide p = decide q := by simp [hpq]
  refine bind (R := Eq) ?_ ?_
  · rw [hd]; exact refl _
  · intro _ _ _
    by_cases hp : p
    · rw [if_pos hp, if_pos (hpq.1 hp)]; exact h1
    · rw [if_neg hp, if_neg fun hq => hp (hpq.2 hq)]; exact h2

theorem idx {l : List α} {l' : List β} {i j : Nat} (h : Len l l') (hi : i = j) : Rel Any (Leak.idx l i) (Leak.idx l' j) := by
  subst hi
  refine of_emit ?_
  by_cases hi : i < l.length
  · rw [Rs.idx, Rs.idx, List.getElem?_eq_getElem hi, List.getElem?_eq_getElem (h ▸ hi)]; exact .some trivial
  · rw [Rs.idx, Rs.idx, List.getElem?_eq_none (by omega), List.getElem?_eq_none (by rw [← h]; omega)]; exact .none

theorem upd {l : List α} {l' : List β} {i j : Nat} {v : α} {v' : β} (h : Len l l') (hi : i = j) : Rel Len (Leak.upd l i v) (Leak.upd l' j v') := by
  subst hi
  refine of_emit ?_
  rw [Rs.upd, Rs.upd, ← h]
  split
  · exact .some (by rw [Len, List.length_set, List.length_set]; exact h)
  · exact .none

theorem slice {l : List α} {l' : List β} {i j i' j' : Nat} (h : Len l l') (hi : i = i') (hj : j = j') :
    Rel Len (Leak.slice l i j) (Leak.slice l' i' j') := by
  subst hi hj
  refine of_emit ?_
  rw [Rs.slice, Rs.slice, ← h]
  split
  · exact .some (by simp [Len, show l.length = l'.length from h])
  · exact .none

theorem copy {l : List α} {l' : List β} {i j i' j' : Nat} {v : List α} {v' : List β} (h : Len l l') (hi : i = i') (hj : j = j')
    (hv : Len v v') : Rel Len (Leak.copy l i j v) (Leak.copy l' i' j' v') := by
  subst hi hj
  refine of_emit ?_
  rw [Rs.copy, Rs.copy, ← h, ← hv]
  split
  · exact .some (by simp [Len, show l.length = l'.length from h, show v.length = v'.length from hv])
  · exact .none

theorem fromLe {w : Nat} {c c' : Bytes} (h : Len c c') : Rel Any (Leak.fromLe w c) (Leak.fromLe w c') := by
  rw [Leak.fromLe, Leak.fromLe, seen, seen, Rs.fromLe, Rs.fromLe, ← h]
  split
  · exact of_emit (.some trivial)
  · exact of_emit .none

theorem fromBe {w : Nat} {c c' : Bytes} (h : Len c c') : Rel Any (Leak.fromBe w c) (Leak.fromBe w c') := by
  rw [Leak.fromBe, Leak.fromBe, seen, seen, Rs.fromBe, Rs.fromBe, ← h]
  split
  · exact of_emit (.some trivial)
  · exact of_emit .none

theorem shr {w : Nat} {x y : BitVec w} {k k' : Nat} (h : k = k') : Rel Any (Leak.shr x k) (Leak.shr y k') := by
  subst h
  rw [Leak.shr, Leak.shr, seen, seen, Rs.shr, Rs.shr]
  split
  · exact of_emit (.some trivial)
  · exact of_emit .none

theorem shl {w : Nat} {x y : BitVec w} {k k' : Nat} (h : k = k') : Rel Any (Leak.shl x k) (Leak.shl y k') := by
  subst h
  rw [Leak.shl, Leak.shl, seen, seen, Rs.shl, Rs.shl]
  split
  · exact of_emit (.some trivial)
  · exact of_emit .none

theorem usub {i j i' j' : Nat} (h : i = i') (h' : j = j') : Rel Eq (Leak.usub i j) (Leak.usub i' j') := by
  subst h h'; exact refl _

theorem add {w : Nat} {x y x' y' : BitVec w} (h : x = x') (h' : y = y') : Rel Eq (Leak.add x y) (Leak.add x' y') := by
  subst h h'; exact refl _

theorem check {p q : Prop} [Decidable p] [Decidable q] (h : p ↔ q) : Rel Eq (Leak.check p) (Leak.check q) := by
  have hd : Rs.check p = Rs.check q := by
    rw [Rs.check, Rs.check]
    by_cases hp : p
    · rw [if_pos hp, if_pos (h.1 hp)]
    · rw [if_neg hp, if_neg fun hq => hp (h.2 hq)]
  rw [Leak.check, Leak.check, hd]; exact refl _

/-- Loops over related lists. -/
theorem foldlM {α' β' : Type} {Q : α' → β' → Prop} {f : α → α' → Leak α} {g : β → β' → Leak β} {l : List α'} {l' : List β'}
    (hl : Each Q l l') {s : α} {t : β} (hs : R s t) (hf : ∀ s t a b, R s t → Q a b → Rel R (f s a) (g t b)) :
    Rel R (l.foldlM f s) (l'.foldlM g t) := by
  induction hl generalizing s t with
  | nil => exact pure hs
  | cons h _ ih =>
    rw [List.foldlM_cons, List.foldlM_cons]
    exact bind (hf _ _ _ _ hs h) fun _ _ h => ih h

theorem each_refl {α : Type} (l : List α) : Each Eq l l := by
  induction l with
  | nil => exact .nil
  | cons a l ih => exact .cons rfl ih

/-- Loops over a public list. -/
theorem fold {α' : Type} {f : α → α' → Leak α} {g : β → α' → Leak β} {l : List α'} {s : α} {t : β} (hs : R s t)
    (hf : ∀ s t a, R s t → Rel R (f s a) (g t a)) : Rel R (l.foldlM f s) (l.foldlM g t) :=
  foldlM (each_refl l) hs fun s t a b hs e => by subst e; exact hf s t a hs

theorem loop {n n' : Nat} {f : α → Nat → Leak α} {g : β → Nat → Leak β} {s : α} {t : β} (hn : n = n') (hs : R s t)
    (hf : ∀ s t i, R s t → Rel R (f s i) (g t i)) : Rel R (Leak.loop n s f) (Leak.loop n' t g) := by
  subst hn; exact fold hs hf

theorem each_of_len {Q : α → β → Prop} {l : List α} {l' : List β} (h : Len l l') (hQ : ∀ a ∈ l, ∀ b ∈ l', Q a b) : Each Q l l' := by
  induction l generalizing l' with
  | nil => cases l' with
    | nil => exact .nil
    | cons => cases h
  | cons a l ih => cases l' with
    | nil => cases h
    | cons b l' => exact .cons (hQ _ (by simp) _ (by simp)) (ih (Nat.succ.inj h) fun _ ha _ hb => hQ _ (by simp [ha]) _ (by simp [hb]))

theorem each_chunks {k : Nat} {b : List α} {b' : List β} (h : Len b b') : Each Len (chunks k b) (chunks k b') :=
  each_of_len (by rw [Len, length_chunks, length_chunks, show b.length = b'.length from h])
    fun _ ha _ hb => (length_of_mem_chunks ha).trans (length_of_mem_chunks hb).symm

theorem each_zip {α' β' : Type} {Q : α → β → Prop} {Q' : α' → β' → Prop} {l : List α} {l' : List β} {m : List α'} {m' : List β'}
    (h : Each Q l l') (h' : Each Q' m m') : Each (fun p q => Q p.1 q.1 ∧ Q' p.2 q.2) (l.zip m) (l'.zip m') := by
  induction h generalizing m m' with
  | nil => exact .nil
  | cons h _ ih => cases h' with
    | nil => exact .nil
    | cons h2 t => exact .cons ⟨h, h2⟩ (ih t)

theorem load {b : List α} {b' : List α} {a : List β} {a' : List β} {k : Nat} {conv conv' : List α → Leak β} (ha : Len a a') (hb : Len b b')
    (hc : ∀ c c', Len c c' → Rel Any (conv c) (conv' c')) : Rel Len (Leak.load a b k conv) (Leak.load a' b' k conv') := by
  refine bind (R := fun (s t : List β × Nat) => Len s.1 t.1 ∧ s.2 = t.2) ?_ ?_
  · refine foldlM (each_zip (each_of_len ha (Q := Any) fun _ _ _ _ => trivial) (each_chunks hb)) ⟨ha, rfl⟩ ?_
    intro s t p q hs hp
    refine bind (hc _ _ hp.2) fun v v' _ => ?_
    rw [hs.2]
    refine bind (refl _) fun _ _ _ => ?_
    exact pure ⟨by rw [Len, List.length_set, List.length_set]; exact hs.1, rfl⟩
  · intro s t h; exact pure h.1

theorem store {b b' : List β} {a a' : List α} {k : Nat} {conv conv' : α → List β} (hb : Len b b') (ha : Len a a')
    (hc : ∀ c c', Len (conv c) (conv' c')) : Rel Len (Leak.store b a k conv) (Leak.store b' a' k conv') := by
  refine bind (R := fun (s t : List β × Nat) => Len s.1 t.1 ∧ s.2 = t.2) ?_ ?_
  · refine foldlM (each_zip (each_chunks hb) (each_of_len ha (Q := Any) fun _ _ _ _ => trivial)) ⟨hb, rfl⟩ ?_
    intro s t p q hs hp
    refine bind (copy hs.1 (by rw [hs.2]) (by rw [hs.2]) (hc _ _)) fun v v' hv => ?_
    exact pure ⟨hv, by rw [hs.2]⟩
  · intro s t h; exact pure h.1

theorem obs {x : Leak α} {y : Leak β} (h : Rel R x y) : x.obs = y.obs := h.1

end Rel
end Hashes.Leak

/-! ### A tactic -/

namespace Hashes.Leak

/-- Lemmas about the functions called; extended file by file. -/
syntax "leak_use" : tactic
macro_rules | `(tactic| leak_use) => `(tactic| fail)

/-- One step of a proof that two runs show the same. -/
macro "leak_step" : tactic => `(tactic| first
  | assumption
  | exact Leak.any _ _
  | intro _
  | with_reducible rfl
  | leak_use
  | refine Rel.pure ?_
  | refine Rel.idx ?_ ?_
  | refine Rel.upd ?_ ?_
  | refine Rel.slice ?_ ?_ ?_
  | refine Rel.copy ?_ ?_ ?_ ?_
  | refine Rel.fromLe ?_
  | refine Rel.fromBe ?_
  | refine Rel.shr ?_
  | refine Rel.shl ?_
  | refine Rel.usub ?_ ?_
  | refine Rel.load ?_ ?_ ?_
  | refine Rel.store ?_ ?_ ?_
  | refine Rel.loop (R := Len) ?_ ?_ ?_
  | refine Rel.loop (R := Any) ?_ ?_ ?_
  | apply Rel.bind
  | (simp only [Len, List.length_map, List.length_replicate, List.length_zipWith, length_leBytes, length_beBytes, List.length_cons, List.length_nil] at *; done)
  | (simp only [Len, List.length_map, List.length_replicate, List.length_zipWith, length_leBytes, length_beBytes, List.length_cons, List.length_nil] at *; simp only [*]; done))

/-- Both runs show the same. -/
macro "leak" : tactic => `(tactic| repeat' leak_step)

end Hashes.Leak
