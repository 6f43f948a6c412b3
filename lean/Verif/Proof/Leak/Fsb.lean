import Verif.Leak.Fsb
import Verif.Proof.Fsb
import Verif.Proof.Leak.Tells
/- FSB: forgetting the observations; they determine the block.  Runs on different blocks take different paths, so the observations of a
step are recognised by what they begin with (`Reads`). -/
namespace Hashes.Leak
variable {α β γ δ : Type}

/-- Two runs that return and whose observations, with whatever follows, are the same, show equally many observations and return values
related by `Q`. -/
def Reads (Q : α → β → Prop) (x : Leak α) (y : Leak β) : Prop :=
  ∀ a b r r', x.val = some a → y.val = some b → x.obs ++ r = y.obs ++ r' → x.obs.length = y.obs.length ∧ Q a b

namespace Reads
variable {Q : α → β → Prop} {S : γ → δ → Prop}

theorem pure {a : α} {b : β} (h : Q a b) : Reads Q (pure a) (pure b) := by
  rintro _ _ _ _ ⟨⟩ ⟨⟩ _; exact ⟨rfl, h⟩

theorem bind {x : Leak α} {y : Leak β} {f : α → Leak γ} {g : β → Leak δ} (h : Reads Q x y)
    (hf : ∀ a b, x.val = some a → y.val = some b → Q a b → Reads S (f a) (g b)) : Reads S (x >>= f) (y >>= g) := by
  intro c d r r' hc hd he
  obtain ⟨a, ha, hfa, ho⟩ := bind_some hc
  obtain ⟨b, hb, hgb, ho'⟩ := bind_some hd
  rw [ho, ho', List.append_assoc, List.append_assoc] at he
  obtain ⟨h1, h2⟩ := h a b _ _ ha hb he
  obtain ⟨h3, h4⟩ := hf a b ha hb h2 c d r r' hfa hgb (List.append_inj he h1).2
  exact ⟨by rw [ho, ho', List.length_append, List.length_append, h1, h3], h4⟩

theorem emit {o o' : Obs} {x : Option α} {y : Option β} : Reads (fun _ _ => o = o') (emit o x) (Leak.emit o' y) := by
  intro a b r r' _ _ h
  exact ⟨rfl, (List.cons.inj h).1⟩

theorem mono {R : α → β → Prop} {x : Leak α} {y : Leak β} (h : Reads Q x y) (hR : ∀ a b, x.val = some a → y.val = some b → Q a b → R a b) : Reads R x y :=
  fun a b r r' ha hb he => ⟨(h a b r r' ha hb he).1, hR a b ha hb (h a b r r' ha hb he).2⟩

theorem any {x : Leak α} {y : Leak β} (h : Reads Q x y) : Reads Any x y := h.mono fun _ _ _ _ _ => trivial

theorem keep {p : Prop} {x : Leak α} {y : Leak β} (h : Reads Any x y) (hp : p) : Reads (fun _ _ => p) x y := h.mono fun _ _ _ _ _ => hp

theorem fold {α' : Type} {R : α → β → Prop} {f : α → α' → Leak α} {g : β → α' → Leak β} {l : List α'} {s : α} {t : β} (hs : R s t)
    (hf : ∀ s t a, R s t → Reads R (f s a) (g t a)) : Reads R (l.foldlM f s) (l.foldlM g t) := by
  induction l generalizing s t with
  | nil => exact pure hs
  | cons a l ih => rw [List.foldlM_cons, List.foldlM_cons]; exact bind (hf s t a hs) fun _ _ _ _ h => ih h

theorem mapM {f : γ → Leak α} {g : γ → Leak β} (h : ∀ c, Reads Any (f c) (g c)) (l : List γ) : Reads Any (l.mapM f) (l.mapM g) := by
  induction l with
  | nil => exact pure trivial
  | cons c l ih =>
    rw [List.mapM_cons, List.mapM_cons]
    exact bind (h c) fun _ _ _ _ _ => bind ih fun _ _ _ _ _ => pure trivial

/-- The two runs take the same branch. -/
theorem branch {p q : Prop} [Decidable p] [Decidable q] {x y : Leak α} {x' y' : Leak β} (h1 : p → q → Reads Q x x') (h2 : ¬ p → ¬ q → Reads Q y y') :
    Reads Q (Leak.branch p x y) (Leak.branch q x' y') := by
  refine bind emit fun _ _ _ _ h => ?_
  have h : p ↔ q := decide_eq_decide.mp (Obs.branch.inj h)
  by_cases hp : p
  · rw [if_pos hp, if_pos (h.mp hp)]; exact h1 hp (h.mp hp)
  · rw [if_neg hp, if_neg fun hq => hp (h.mpr hq)]; exact h2 hp fun hq => hp (h.mpr hq)

end Reads
end Hashes.Leak

namespace Hashes.Fsb
open Leak
open Spec.Fsb (bit num)
variable {P : Params} {PI : Bytes}

/-! ### Forgetting the observations -/

theorem val_loopL (lo hi : Nat) (body : Nat → Bytes → Leak Bytes) (t : Bytes) :
    (loopL lo hi body t).val = loop lo hi (fun i t => (body i t).val) t := by
  rw [loopL, val_foldlM]; rfl

theorem val_seen {α : Type} (x : Option α) : (seen x).val = x := rfl

theorem defineIvL_val (index : Nat) : (defineIvL P PI index).val = defineIv P PI index := by
  simp only [defineIvL, defineIv, sliceL, csubL, idxL, shrL, shlL, storeL, val_bind, val_emit, val_seen]

theorem divideOneL_val (m : Bytes) (size i : Nat) : (divideOneL m size i).val = divideOne m size i := by
  simp only [divideOneL, divideOne, csubL, idxL, shrL, shlL, val_bind, val_emit, val_seen, val_branch]

theorem dividingBitsL_val (m : Bytes) (size : Nat) : (dividingBitsL P m size).val = dividingBits P m size := by
  simp only [dividingBitsL, dividingBits, idxL, shrL, shlL, val_bind, val_emit, val_seen, val_branch, val_mapM, val_panic, val_pure]
  split
  · rfl
  · simp only [divideOneL_val]; rfl

theorem wIndicesL_val (h m : Bytes) : (wIndicesL P h m).val = wIndices P h m := by
  simp only [wIndicesL, wIndices, idxL, cadd32L, val_bind, val_emit, val_seen, val_mapM, dividingBitsL_val]

theorem shiftAndTruncateL_val (a : Bytes) (sv : Nat) : (shiftAndTruncateL P a sv).val = shiftAndTruncate P a sv := by
  simp only [shiftAndTruncateL, shiftSmallL, shiftLargeL, shiftBitsL, shiftBytesL, shiftAndTruncate, idxL, shrL, shlL, storeL, xorAtL, csubL, sliceL,
    val_bind, val_emit, val_seen, val_branch, val_panic, val_loopL]

theorem columnL_val (acc : Bytes) (c : Nat) : (columnL P PI acc c).val = (do
    let vector ← defineIv P PI (c / P.r)
    let truncated ← shiftAndTruncate P vector (c % P.r)
    some (List.zipWith (· ^^^ ·) acc truncated) : Option Bytes) := by
  simp only [columnL, val_bind, val_pure, defineIvL_val, shiftAndTruncateL_val]

theorem compressL_val (h m : Bytes) : (compressL P PI h m).val = compress P PI h m := by
  simp only [compressL, compress, val_bind, val_foldlM, wIndicesL_val, columnL_val]

/-! ### What the observations tell -/

theorem reads_loop {lo hi : Nat} {f g : Nat → Bytes → Leak Bytes} {s t : Bytes} (h : ∀ i s t, Reads Any (f i s) (g i t)) :
    Reads Any (loopL lo hi f s) (loopL lo hi g t) := Reads.fold (R := Any) trivial fun s t i _ => h i s t

/-- Both runs go the same way. -/
local macro "reads" : tactic => `(tactic| repeat' first
  | exact Reads.emit.any
  | exact Reads.pure trivial
  | refine reads_loop ?_
  | refine Reads.bind (Q := Any) ?_ ?_
  | intro _)

theorem small_reads (a a' : Bytes) (sv sv' : Nat) : Reads Any (shiftSmallL P a sv) (shiftSmallL P a' sv') := by
  unfold shiftSmallL; reads

theorem bits_reads (a a' : Bytes) (b s s' r r' : Nat) : Reads Any (shiftBitsL P a b s r) (shiftBitsL P a' b s' r') := by
  unfold shiftBitsL
  refine Reads.bind (Q := Any) (by reads) fun _ _ _ _ _ => ?_
  refine Reads.branch (fun _ _ => Reads.branch (fun _ _ => ?_) fun _ _ => ?_) fun _ _ => ?_ <;> reads

theorem bytes_reads (a a' : Bytes) (b s s' : Nat) : Reads Any (shiftBytesL P a b s) (shiftBytesL P a' b s') := by
  unfold shiftBytesL
  refine Reads.bind (Q := Any) (by reads) fun _ _ _ _ _ => ?_
  refine Reads.branch (fun _ _ => ?_) fun _ _ _ _ _ _ h => by cases h
  reads

/-- Both runs begin with an observation that is known. -/
theorem reads_head {α β : Type} {Q : α → β → Prop} {x : Leak α} {y : Leak β} {o o' : Obs} (hx : x.obs.head? = some o) (hy : y.obs.head? = some o')
    (h : o = o' → Reads Q x y) : Reads Q x y := by
  intro a b r r' ha hb he
  refine h ?_ a b r r' ha hb he
  have := congrArg List.head? he
  rw [List.head?_append, List.head?_append, hx, hy] at this
  exact Option.some.inj this

theorem bits_head (a : Bytes) {b : Nat} (hb : 2 ≤ b) (s r : Nat) : (shiftBitsL P a b s r).obs.head? = some (.index s) := by
  obtain ⟨k, rfl⟩ : ∃ k, b = k + 2 := ⟨b - 2, by omega⟩
  simp only [shiftBitsL, loopL, Nat.sub_zero, show k + 2 - 1 = k + 1 from rfl, List.range'_succ, List.foldlM_cons, bind_assoc, obs_bind, idxL]
  rfl

theorem csub_some {a b c : Nat} (h : csub a b = some c) : b ≤ a ∧ c = a - b := by
  simp only [csub] at h
  split at h
  · cases h; exact ⟨‹_›, rfl⟩
  · cases h

/-- Within the distance of two columns for the same bits of the message. -/
def Near (x y : Nat) : Prop := x < y + 256 ∧ y < x + 256

theorem large_reads {a a' : Bytes} (hl : a.length = a'.length) (sv sv' : Nat) :
    Reads (fun _ _ => Near sv sv') (shiftLargeL P a sv) (shiftLargeL P a' sv') := by
  unfold shiftLargeL
  refine Reads.bind (Q := Any) Reads.emit.any fun d d' hd hd' _ => ?_
  refine Reads.bind (Q := Any) Reads.emit.any fun e e' he he' _ => ?_
  refine Reads.bind (Q := Any) Reads.emit.any fun s s' hs hs' _ => ?_
  obtain ⟨d1, d2⟩ := csub_some hd
  obtain ⟨d1', d2'⟩ := csub_some hd'
  obtain ⟨e1, e2⟩ := csub_some he
  obtain ⟨e1', e2'⟩ := csub_some he'
  obtain ⟨s1, s2⟩ := csub_some hs
  obtain ⟨s1', s2'⟩ := csub_some hs'
  have key : s = s' → e / 8 = e' / 8 ∧ Near sv sv' := by
    intro h
    have : e / 8 = e' / 8 := by omega
    exact ⟨this, by unfold Near; omega⟩
  refine Reads.branch (fun _ _ => ?_) fun _ _ => ?_
  · refine reads_head (bits_head a (by omega) s _) (bits_head a' (by omega) s' _) fun h => ?_
    obtain ⟨k1, k2⟩ := key (Obs.index.inj h)
    simp only [k1]
    exact (bits_reads _ _ _ _ _ _ _).keep k2
  · refine reads_head (o := .range s (s + (e / 8 + 2))) (o' := .range s' (s' + (e' / 8 + 2))) (by simp only [shiftBytesL, obs_bind]; rfl)
      (by simp only [shiftBytesL, obs_bind]; rfl) fun h => ?_
    obtain ⟨k1, k2⟩ := key (Obs.range.inj h).1
    simp only [k1]
    exact (bytes_reads _ _ _ _ _).keep k2

theorem sat_reads {a a' : Bytes} (hl : a.length = a'.length) (sv sv' : Nat) :
    Reads (fun _ _ => Near sv sv') (shiftAndTruncateL P a sv) (shiftAndTruncateL P a' sv') := by
  unfold shiftAndTruncateL
  refine Reads.branch (fun h h' => ?_) fun _ _ => Reads.branch (fun h h' => ?_) fun _ _ => large_reads hl sv sv'
  · exact Reads.emit.any.keep (by unfold Near; omega)
  · exact (small_reads _ _ _ _).keep (by unfold Near; omega)

theorem defineIv_reads (i i' : Nat) : Reads (fun v v' => i = i' ∧ v.length = v'.length) (defineIvL P PI i) (defineIvL P PI i') := by
  unfold defineIvL
  refine Reads.bind Reads.emit fun v v' hv hv' ho => ?_
  obtain ⟨h1, h2⟩ := Obs.range.inj ho
  have e : i = i' := Nat.eq_of_mul_eq_mul_right (by unfold Params.sizeVectors; omega) h1
  subst e
  rw [show v' = v from Option.some.inj (hv'.symm.trans hv)]
  refine Reads.bind (Q := Any) Reads.emit.any fun _ _ _ _ _ => ?_
  refine Reads.bind (Q := Any) Reads.emit.any fun _ _ _ _ _ => ?_
  refine Reads.bind (Q := Any) Reads.emit.any fun _ _ _ _ _ => ?_
  refine Reads.bind (Q := Any) Reads.emit.any fun _ _ _ _ _ => ?_
  refine Reads.emit.mono fun x y hx hy _ => ⟨rfl, ?_⟩
  have len : ∀ {l : Bytes} {i : Nat} {b : Byte} {r : Bytes}, store l i b = some r → r.length = l.length := by
    intro l i b r h
    simp only [store] at h
    split at h
    · cases h; simp
    · cases h
  exact (len hx).trans (len hy).symm

theorem column_reads (acc acc' : Bytes) (c c' : Nat) : Reads (fun _ _ => Near c c') (columnL P PI acc c) (columnL P PI acc' c') := by
  unfold columnL
  refine Reads.bind (defineIv_reads _ _) fun v v' _ _ ⟨h1, h2⟩ => ?_
  refine Reads.bind (sat_reads h2 _ _) fun _ _ _ _ h3 => Reads.pure ?_
  have e1 := Nat.div_add_mod c P.r
  have e2 := Nat.div_add_mod c' P.r
  rw [h1] at e1
  unfold Near at *
  omega

theorem columns_reads (F F' : Nat → Nat) (l : List Nat) (acc acc' : Bytes) :
    Reads (fun _ _ => ∀ i ∈ l, Near (F i) (F' i)) ((l.map F).foldlM (columnL P PI) acc) ((l.map F').foldlM (columnL P PI) acc') := by
  induction l generalizing acc acc' with
  | nil => exact Reads.pure (by simp)
  | cons i l ih =>
    simp only [List.map_cons, List.foldlM_cons]
    refine Reads.bind (column_reads _ _ _ _) fun _ _ _ _ h => (ih _ _).mono fun _ _ _ _ h' => ?_
    simp only [List.forall_mem_cons]
    exact ⟨h, h'⟩

theorem num_append (l : List Bool) (b : Bool) : num (l ++ [b]) = 2 * num l + b.toNat := by
  simp only [num, List.foldl_append, List.foldl_cons, List.foldl_nil]

theorem num_inj (f g : Nat → Bool) (k : Nat) (h : num ((List.range k).map f) = num ((List.range k).map g)) : ∀ t < k, f t = g t := by
  induction k with
  | zero => intro t ht; omega
  | succ k ih =>
    simp only [List.range_succ, List.map_append, List.map_cons, List.map_nil, num_append] at h
    have b1 := Bool.toNat_lt (f k)
    have b2 := Bool.toNat_lt (g k)
    intro t ht
    by_cases e : t = k
    · subst e
      have : (f t).toNat = (g t).toNat := by omega
      cases hf : f t <;> cases hg : g t <;> simp_all
    · exact ih (by omega) t (by omega)

theorem wIndices_reads (h h' m m' : Bytes) : Reads Any (wIndicesL P h m) (wIndicesL P h' m') := by
  unfold wIndicesL dividingBitsL
  simp only [bind_assoc]
  refine Reads.bind (Q := Any) ?_ fun _ _ _ _ _ => Reads.bind (Q := Any) (Reads.mapM (fun i => ?_) _) fun _ _ _ _ _ => ?_
  · exact Reads.branch (fun _ _ _ _ _ _ h => by cases h) fun _ _ => Reads.pure trivial
  · unfold divideOneL
    refine Reads.bind (Q := Any) Reads.emit.any fun _ _ _ _ _ => Reads.branch (fun _ _ => ?_) fun _ _ => ?_ <;> reads
  · simp only [pure_bind]
    refine Reads.bind (Q := Any) Reads.emit.any fun _ _ _ _ _ => Reads.bind (Q := Any) Reads.emit.any fun _ _ _ _ _ =>
      Reads.bind (Q := Any) Reads.emit.any fun _ _ _ _ _ => Reads.mapM (fun i => ?_) _
    reads

/-- The observations of the compression function determine the block. -/
theorem compressL_reads (g : Good P) (h : Bytes) {m m' : Bytes} (hh : h.length = P.r / 8) (hm : m.length = P.bs) (hm' : m'.length = P.bs) :
    Reads (fun _ _ => m = m') (compressL P PI h m) (compressL P PI h m') := by
  unfold compressL
  refine Reads.bind (wIndices_reads _ _ _ _) fun ws ws' e e' _ => ?_
  rw [wIndicesL_val, wIndices_eq g h m hh hm] at e
  rw [wIndicesL_val, wIndices_eq g h m' hh hm'] at e'
  cases e; cases e'
  refine (columns_reads _ _ _ _ _).mono fun _ _ _ _ near => ?_
  refine bits_ext hm hm' fun j hj => ?_
  have gs := g.size; have gb := g.s_bs
  rw [← gb] at hj
  have near := near (j / ((P.s - P.r) / P.w)) (List.mem_range.mpr (Nat.div_lt_of_lt_mul (by rw [Nat.mul_comm]; exact hj)))
  rw [W_eq g, W_eq g] at near
  have eg : group m ((P.s - P.r) / P.w) (j / ((P.s - P.r) / P.w)) = group m' ((P.s - P.r) / P.w) (j / ((P.s - P.r) / P.w)) := by
    unfold Near at near; omega
  have := num_inj _ _ _ eg (j % ((P.s - P.r) / P.w)) (Nat.mod_lt _ (by omega))
  rw [Nat.div_add_mod'] at this
  exact this

end Hashes.Fsb
