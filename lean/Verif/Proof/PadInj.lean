import Verif.Proof.Padding
import Verif.Proof.Words
import Verif.Spec.Calls
import Mathlib.Data.List.Induction
/- Injectivity and block counts of the paddings; the Merkle–Damgård reduction. -/
namespace Hashes
open Spec

/-- `m ‖ d ‖ z…z ‖ t` determines `m`, `d` and `t` when `d ≠ z` and the tail has a fixed length. -/
theorem delim_inj {α : Type} {d d' z : α} (hd : d ≠ z) (hd' : d' ≠ z) {a b : List α} {k k' : Nat} {t t' : List α}
    (ht : t.length = t'.length)
    (h : a ++ [d] ++ List.replicate k z ++ t = b ++ [d'] ++ List.replicate k' z ++ t') : a = b ∧ d = d' ∧ t = t' := by
  obtain ⟨h, h'⟩ := List.append_inj' h ht
  have hl := congrArg List.length h
  simp only [List.length_append, List.length_cons, List.length_nil, List.length_replicate] at hl
  have key : ∀ {a b : List α} {k k' : Nat} {d d' : α}, d' ≠ z → a ++ [d] ++ List.replicate k z = b ++ [d'] ++ List.replicate k' z →
      a.length + (0 + 1) + k = b.length + (0 + 1) + k' → ¬ a.length < b.length := by
    intro a b k k' d d' hd h hl hlt
    have h1 : (a ++ [d] ++ List.replicate k z)[b.length]? = some z := by
      rw [List.getElem?_append_right (by simp; omega)]
      rw [List.getElem?_replicate, if_pos (by simp; omega)]
    have h2 : (b ++ [d'] ++ List.replicate k' z)[b.length]? = some d' := by
      rw [List.append_assoc, List.getElem?_append_right (Nat.le_refl _)]
      simp
    rw [h, h2] at h1
    exact hd (Option.some.inj h1)
  have e : a.length = b.length := by
    have h1 := key hd' h hl
    have h2 := key hd h.symm hl.symm
    omega
  obtain ⟨h, _⟩ := List.append_inj h (by simp [e])
  obtain ⟨h1, h2⟩ := List.append_inj h e
  exact ⟨h1, by simpa using h2, h'⟩

theorem mdPad_inj {bs : Nat} {delim : Byte} (hd : delim ≠ 0) {s s' m m' : Bytes} (hs : s.length = s'.length)
    (h : mdPad bs delim s m = mdPad bs delim s' m') : m = m' := (delim_inj hd hd hs h).1

/-- Block count: one extra block, or two when delimiter and suffix do not fit. -/
theorem mdPad_blocks {bs : Nat} (hb : 0 < bs) {delim : Byte} {s m : Bytes} (hs : s.length < bs) :
    (mdPad bs delim s m).length =
      bs * (m.length / bs + if m.length % bs + 1 + s.length ≤ bs then 1 else 2) := by
  have h1 := Nat.mod_lt m.length hb
  have h2 := Nat.div_add_mod m.length bs
  have hz : zeroFill bs (m.length + 1 + s.length) = zeroFill bs (m.length % bs + 1 + s.length) := by
    rw [show m.length + 1 + s.length = (m.length % bs + 1 + s.length) + (m.length / bs) * bs by
      rw [Nat.mul_comm]; omega, zeroFill_add_mul]
  have hlen : (mdPad bs delim s m).length = m.length + 1 + zeroFill bs (m.length + 1 + s.length) + s.length := by
    simp [mdPad]; omega
  rw [hlen, hz, Nat.mul_add]
  by_cases hle : m.length % bs + 1 + s.length ≤ bs
  · rw [if_pos hle]
    by_cases he : m.length % bs + 1 + s.length = bs
    · rw [he, zeroFill, Nat.mod_self, Nat.sub_zero, Nat.mod_self]; omega
    · rw [zeroFill, Nat.mod_eq_of_lt (a := m.length % bs + 1 + s.length) (by omega), Nat.mod_eq_of_lt (by omega)]; omega
  · rw [if_neg hle]
    have hm : (m.length % bs + 1 + s.length) % bs = m.length % bs + 1 + s.length - bs := by
      rw [Nat.mod_eq_sub_mod (by omega), Nat.mod_eq_of_lt (by omega)]
    by_cases h0 : m.length % bs + 1 + s.length = 2 * bs
    · omega
    · rw [zeroFill, hm, Nat.mod_eq_of_lt (by omega)]; omega

/-! ### Merkle–Damgård -/

theorem calls_append {σ β : Type} (f : σ → β → σ) (s : σ) (l l' : List β) :
    calls f s (l ++ l') = calls f s l ++ calls f (l.foldl f s) l' := by
  induction l generalizing s with
  | nil => rfl
  | cons b l ih => simp only [List.cons_append, calls, ih, List.foldl_cons]

theorem mem_of_mem_calls {σ β : Type} {f : σ → β → σ} {s : σ} {l : List β} {p : σ × β} (h : p ∈ calls f s l) : p.2 ∈ l := by
  induction l generalizing s with
  | nil => cases h
  | cons b l ih =>
    rcases List.mem_cons.1 h with rfl | h
    · exact List.mem_cons_self
    · exact List.mem_cons_of_mem _ (ih h)

/-- Iterations from the same value that end alike: two calls collide, or one input is a suffix of the other and the rest of the
other leads back to the initial value. -/
theorem fold_suffix {σ β : Type} (f : σ → β → σ) (iv : σ) (x y : List β) (h : x.foldl f iv = y.foldl f iv) :
    CallsCollide f (calls f iv x) (calls f iv y) ∨ (∃ z, y = z ++ x ∧ z.foldl f iv = iv) ∨ (∃ z, x = z ++ y ∧ z.foldl f iv = iv) := by
  induction x using List.reverseRecOn generalizing y with
  | nil => exact .inr (.inl ⟨y, by simp, h.symm⟩)
  | append_singleton x a ih =>
    rcases List.eq_nil_or_concat y with rfl | ⟨y, b, rfl⟩
    · exact .inr (.inr ⟨x ++ [a], by simp, h⟩)
    · rw [List.concat_eq_append, List.foldl_append, List.foldl_append] at h
      simp only [List.foldl_cons, List.foldl_nil] at h
      rw [List.concat_eq_append, calls_append, calls_append]
      by_cases he : (x.foldl f iv, a) = (y.foldl f iv, b)
      · obtain ⟨h1, rfl⟩ := Prod.mk.inj he
        rcases ih y h1 with ⟨p, hp, q, hq, h2⟩ | ⟨z, rfl, h2⟩ | ⟨z, rfl, h2⟩
        · exact .inl ⟨p, List.mem_append_left _ hp, q, List.mem_append_left _ hq, h2⟩
        · exact .inr (.inl ⟨z, by simp, h2⟩)
        · exact .inr (.inr ⟨z, by simp, h2⟩)
      · exact .inl ⟨(x.foldl f iv, a), by simp [calls], (y.foldl f iv, b), by simp [calls], he, h⟩

/-- Iterations over inputs of which none is a suffix of the other. -/
theorem fold_collision {σ β : Type} (f : σ → β → σ) (iv : σ) (x y : List β) (hx : ¬ x <:+ y) (hy : ¬ y <:+ x)
    (h : x.foldl f iv = y.foldl f iv) : CallsCollide f (calls f iv x) (calls f iv y) := by
  rcases fold_suffix f iv x y h with h | ⟨z, rfl, _⟩ | ⟨z, rfl, _⟩
  · exact h
  · exact absurd (List.suffix_append z x) hx
  · exact absurd (List.suffix_append z y) hy

theorem not_suffix_of_length {β : Type} {x y : List β} (h : x.length = y.length) (hne : x ≠ y) : ¬ x <:+ y := fun hs => hne (hs.eq_of_length h)

theorem not_suffix_of_last {β : Type} {x y : List β} {a b : β} (hne : a ≠ b) : ¬ x ++ [a] <:+ y ++ [b] := by
  rintro ⟨z, h⟩
  rw [← List.append_assoc] at h
  exact hne (List.cons.inj (List.append_inj' h rfl).2).1

/-- The last chunk of a string ending in `t` ends in `t`. -/
theorem chunks_last {bs : Nat} (hb : 0 < bs) {p t : Bytes} (ht : t.length ≤ bs) (hp : p ≠ [] ∨ t ≠ []) (hd : bs ∣ (p ++ t).length) :
    ∃ init q, chunks bs (p ++ t) = init ++ [q ++ t] ∧ (q ++ t).length = bs := by
  obtain ⟨k, hk⟩ := hd
  rw [List.length_append] at hk
  cases k with
  | zero =>
    rcases hp with h | h
    · exact absurd (List.eq_nil_of_length_eq_zero (by omega)) h
    · exact absurd (List.eq_nil_of_length_eq_zero (by omega)) h
  | succ k =>
    rw [Nat.mul_succ] at hk
    have e : p ++ t = p.take (bs * k) ++ (p.drop (bs * k) ++ t) := by rw [← List.append_assoc, List.take_append_drop]
    have hl : (p.drop (bs * k) ++ t).length = bs := by simp; omega
    refine ⟨chunks bs (p.take (bs * k)), p.drop (bs * k), ?_, hl⟩
    rw [e, chunks_append hb _ ⟨k, by simp; omega⟩, chunks_single hb hl]

theorem mem_chunks_length {bs : Nat} {l b : Bytes} (hb : b ∈ chunks bs l) : b.length = bs :=
  length_of_mem_chunks hb

/-- Merkle–Damgård padding with length strengthening: no padded message is a suffix of another, block by block. -/
theorem mdPad_suffix {bs sl : Nat} (hb : 0 < bs) (h0 : 0 < sl) (hsl : sl ≤ bs)
    {delim : Byte} (hd : delim ≠ 0) (enc : Nat → Bytes) (hlen : ∀ n, (enc n).length = sl) {m m' : Bytes}
    (henc : enc m.length = enc m'.length → m.length = m'.length) (hne : m ≠ m') :
    ¬ chunks bs (mdPad bs delim (enc m.length) m) <:+ chunks bs (mdPad bs delim (enc m'.length) m') := by
  by_cases hl : m.length = m'.length
  · have e : (mdPad bs delim (enc m.length) m).length = (mdPad bs delim (enc m'.length) m').length := by
      simp [mdPad, hlen, hl]
    refine not_suffix_of_length (by rw [length_chunks, length_chunks, e]) fun hc => ?_
    have := congrArg List.flatten hc
    rw [chunks_flatten (length_mdPad_dvd hb), chunks_flatten (length_mdPad_dvd hb)] at this
    exact hne (mdPad_inj hd (by rw [hlen, hlen]) this)
  · have hx : ∀ m : Bytes, ∃ init q, chunks bs (mdPad bs delim (enc m.length) m) = init ++ [q ++ enc m.length] ∧
        (q ++ enc m.length).length = bs := fun m => by
      refine chunks_last hb (by rw [hlen]; exact hsl) (.inr ?_) (length_mdPad_dvd hb)
      intro h; have := hlen m.length; rw [h] at this; simp at this; omega
    obtain ⟨x, q, hx1, hx2⟩ := hx m
    obtain ⟨y, r, hy1, hy2⟩ := hx m'
    rw [hx1, hy1]
    refine not_suffix_of_last fun he => ?_
    exact hl (henc (List.append_inj' he (by rw [hlen, hlen])).2)

/-- Merkle–Damgård with length strengthening: a collision of the iterated function is one of the compression function, in the calls
made. -/
theorem md_reduction {σ : Type} (f : σ → Bytes → σ) (iv : σ) {bs sl : Nat} (hb : 0 < bs) (h0 : 0 < sl) (hsl : sl ≤ bs)
    {delim : Byte} (hd : delim ≠ 0) (enc : Nat → Bytes) (hlen : ∀ n, (enc n).length = sl) {m m' : Bytes}
    (henc : enc m.length = enc m'.length → m.length = m'.length) (hne : m ≠ m')
    (h : (chunks bs (mdPad bs delim (enc m.length) m)).foldl f iv = (chunks bs (mdPad bs delim (enc m'.length) m')).foldl f iv) :
    CallsCollide f (calls f iv (chunks bs (mdPad bs delim (enc m.length) m)))
      (calls f iv (chunks bs (mdPad bs delim (enc m'.length) m'))) :=
  fold_collision f iv _ _ (mdPad_suffix hb h0 hsl hd enc hlen henc hne)
    (mdPad_suffix hb h0 hsl hd enc hlen (fun h => (henc h.symm).symm) hne.symm) h

end Hashes
