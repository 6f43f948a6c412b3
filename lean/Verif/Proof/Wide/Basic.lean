import Verif.Proof.PadInj
import Verif.Spec.Wide
/- Iterations whose output is not the whole final value. -/
namespace Hashes
open Spec

theorem wide_collide {σ β ω : Type} {f : σ → β → σ} {iv : σ} {out : σ → ω} {x y : List β} (hx : ¬ x <:+ y) (hy : ¬ y <:+ x)
    (h : out (x.foldl f iv) = out (y.foldl f iv)) : WideCollide f iv out x y := by
  by_cases e : x.foldl f iv = y.foldl f iv
  · exact .inl (fold_collision f iv x y hx hy e)
  · exact .inr ⟨e, h⟩

/-- Sponges: a step whose result determines the part `cap` of the state, and the block given the state. -/
theorem sponge_collide {σ β κ ω : Type} {f : σ → β → σ} {iv : σ} {cap : σ → κ} {out : σ → ω} {p q : List β} {a b : β}
    (hcap : f (p.foldl f iv) a = f (q.foldl f iv) b → cap (p.foldl f iv) = cap (q.foldl f iv))
    (hblk : f (p.foldl f iv) a = f (p.foldl f iv) b → a = b)
    (hne : p ++ [a] ≠ q ++ [b]) (h : out ((p ++ [a]).foldl f iv) = out ((q ++ [b]).foldl f iv)) :
    SpongeCollide f iv cap out (p ++ [a]) (q ++ [b]) := by
  by_cases e : (p ++ [a]).foldl f iv = (q ++ [b]).foldl f iv
  · rw [List.foldl_append, List.foldl_append] at e
    refine .inl ⟨p, q, List.prefix_append .., by simp, List.prefix_append .., by simp, ?_, hcap e⟩
    rintro rfl
    exact hne (by rw [hblk e])
  · exact .inr ⟨e, h⟩

/-- Padded messages that end in a field of `sl` bytes: equal fields give equally long paddings, and padding is injective. -/
theorem pad_suffix {bs sl : Nat} (hb : 0 < bs) (h0 : 0 < sl) (hsl : sl ≤ bs) {pad : Bytes → Bytes} {pre enc : Bytes → Bytes}
    (hpad : ∀ m, pad m = pre m ++ enc m) (hlen : ∀ m, (enc m).length = sl) (hd : ∀ m, bs ∣ (pad m).length) {m m' : Bytes}
    (henc : enc m = enc m' → (pad m).length = (pad m').length) (hinj : pad m = pad m' → m = m') (hne : m ≠ m') :
    ¬ chunks bs (pad m) <:+ chunks bs (pad m') := by
  by_cases hl : (pad m).length = (pad m').length
  · refine not_suffix_of_length (by rw [length_chunks, length_chunks, hl]) fun hc => ?_
    have := congrArg List.flatten hc
    rw [chunks_flatten (hd m), chunks_flatten (hd m')] at this
    exact hne (hinj this)
  · have hx : ∀ m : Bytes, ∃ init q, chunks bs (pad m) = init ++ [q ++ enc m] ∧ (q ++ enc m).length = bs := fun m => by
      rw [hpad]
      refine chunks_last hb (by rw [hlen]; exact hsl) (.inr ?_) (hpad m ▸ hd m)
      intro h; have := hlen m; rw [h] at this; simp at this; omega
    obtain ⟨x, q, hx1, hx2⟩ := hx m
    obtain ⟨y, r, hy1, hy2⟩ := hx m'
    rw [hx1, hy1]
    refine not_suffix_of_last fun h => hl (henc ?_)
    exact (List.append_inj' h (by rw [hlen, hlen])).2

end Hashes
