import Verif.Model.Backends
import Verif.Proof.Counters
import Verif.Proof.Sha256
import Verif.Proof.Sha512
import Verif.Proof.Sha1
import Verif.Proof.Md5
/- A core whose compression function agrees on whole blocks gives the same digests. -/
namespace Hashes

theorem BlockBuffer.digestPad_comp_congr {σ : Type} {bs : Nat} {b : BlockBuffer} {delim : Byte} {suffix : Bytes}
    {f g : σ → Bytes → σ} (wf : b.WF .eager bs) (hs : suffix.length ≤ bs) (h : ∀ s x, x.length = bs → f s x = g s x) (s : σ) :
    b.digestPad bs delim suffix f s = b.digestPad bs delim suffix g s := by
  have hp : b.pos < bs := wf.2
  have hl : ((b.padWithZeros bs).1).length = bs := by
    simp only [padWithZeros, List.length_append, List.length_replicate, List.length_take, wf.1]
    have := wf.pos_le
    omega
  have h1 : (overwrite (b.padWithZeros bs).1 b.pos [delim]).length = bs := by
    rw [length_overwrite (by rw [hl]; simp; omega), hl]
  unfold digestPad
  dsimp only
  split
  · rw [h s _ h1]
    exact h _ _ (by rw [length_overwrite (by simp; omega), List.length_replicate])
  · exact h _ _ (by rw [length_overwrite (by rw [h1]; omega), h1])

theorem Core.backend_eq {σ ω : Type} {inv : σ → Prop} {c d : Core σ ω} (L : c.Lawful inv) (hk : d.kind = c.kind) (hb : d.bs = c.bs)
    (hi : c.init = d.init) {N : Nat} (hN : c.bs ≤ N)
    (hu : ∀ s blks, (∀ x ∈ blks, x.length = c.bs) → c.bs * blks.length ≤ N → c.updateBlocks s blks = d.updateBlocks s blks)
    (hf : ∀ s b, b.WF c.kind c.bs → c.finalize s b = d.finalize s b) (l : List Bytes) (hl : ∀ x ∈ l, x.length ≤ N) :
    d.finish (d.updates d.new l) = c.finish (c.updates c.new l) := by
  obtain ⟨e1, e2⟩ := updates_rel L Eq hk hb hi l fun x hx s t blks hbl hn e => by
    rw [e, hu t blks hbl]
    refine Nat.le_trans (Nat.mul_le_mul_left _ hn) ?_
    rw [← Nat.mul_max_mul_left]
    exact Nat.max_le.2 ⟨by omega, Nat.le_trans (Nat.mul_div_le _ _) (hl x hx)⟩
  rw [Core.finish, Core.finish, ← e1, ← e2, hf _ _ ((Core.Rep.new L).updates L l).1]

namespace Backends

/-- The longest byte slice, `isize::MAX` on a 64-bit target. -/
abbrev maxLen : Nat := 2 ^ 63 - 1

theorem digest256 (comp : V8 W32 → List Bytes → V8 W32)
    (h : ∀ s blks, (∀ x ∈ blks, x.length = 64) → 64 * blks.length ≤ maxLen → comp s blks = Sha256.compressSoft s blks)
    (n : Nat) (iv : Sha256.State) (l : List Bytes) (hl : ∀ x ∈ l, x.length ≤ maxLen) :
    ((core256 comp).ctWith n iv).finish (((core256 comp).ctWith n iv).updates ((core256 comp).ctWith n iv).new l) =
      (Sha256.varCore.ctWith n iv).finish ((Sha256.varCore.ctWith n iv).updates (Sha256.varCore.ctWith n iv).new l) := by
  refine Core.backend_eq (d := (core256 comp).ctWith n iv) (Sha256.lawful.ct n iv) rfl rfl rfl (N := maxLen) (show 64 ≤ maxLen by decide) ?_ ?_ l hl
  · intro s blks hb hn
    exact congrArg (Sha256.State.mk · _) (h s.state blks hb hn).symm
  · intro s b wf
    refine congrArg (fun z : V8 W32 => truncate .left n (bytesOfWordsBE z.toList)) ?_
    refine BlockBuffer.digestPad_comp_congr (σ := V8 W32) (bs := 64) wf (by simp) (fun s x hx => (h s [x] (by simpa using hx) (show 64 * 1 ≤ maxLen by decide)).symm) _

theorem digest512 (comp : V8 W64 → List Bytes → V8 W64)
    (h : ∀ s blks, (∀ x ∈ blks, x.length = 128) → 128 * blks.length ≤ maxLen → comp s blks = Sha512.compressSoft s blks)
    (n : Nat) (iv : Sha512.State) (l : List Bytes) (hl : ∀ x ∈ l, x.length ≤ maxLen) :
    ((core512 comp).ctWith n iv).finish (((core512 comp).ctWith n iv).updates ((core512 comp).ctWith n iv).new l) =
      (Sha512.varCore.ctWith n iv).finish ((Sha512.varCore.ctWith n iv).updates (Sha512.varCore.ctWith n iv).new l) := by
  refine Core.backend_eq (d := (core512 comp).ctWith n iv) (Sha512.lawful.ct n iv) rfl rfl rfl (N := maxLen) (show 128 ≤ maxLen by decide) ?_ ?_ l hl
  · intro s blks hb hn
    exact congrArg (Sha512.State.mk · _) (h s.state blks hb hn).symm
  · intro s b wf
    refine congrArg (fun z : V8 W64 => truncate .left n (bytesOfWordsBE z.toList)) ?_
    refine BlockBuffer.digestPad_comp_congr (σ := V8 W64) (bs := 128) wf (by simp) (fun s x hx => (h s [x] (by simpa using hx) (show 128 * 1 ≤ maxLen by decide)).symm) _

theorem digest1 (comp : V5 W32 → List Bytes → V5 W32)
    (h : ∀ s blks, (∀ x ∈ blks, x.length = 64) → 64 * blks.length ≤ maxLen → comp s blks = Sha1.compressSoft s blks)
    (l : List Bytes) (hl : ∀ x ∈ l, x.length ≤ maxLen) :
    (core1 comp).finish ((core1 comp).updates (core1 comp).new l) = Sha1.sha1.finish (Sha1.sha1.updates Sha1.sha1.new l) := by
  refine Core.backend_eq (d := core1 comp) Sha1.lawful rfl rfl rfl (N := maxLen) (show 64 ≤ maxLen by decide) ?_ ?_ l hl
  · intro s blks hb hn
    exact congrArg (Sha1.State.mk · _) (h s.h blks hb hn).symm
  · intro s b wf
    refine congrArg (fun z : V5 W32 => bytesOfWordsBE z.toList) ?_
    refine BlockBuffer.digestPad_comp_congr (σ := V5 W32) (bs := 64) wf (by simp) (fun s x hx => (h s [x] (by simpa using hx) (show 64 * 1 ≤ maxLen by decide)).symm) _

theorem digestMd5 (comp : V4 W32 → List Bytes → V4 W32)
    (h : ∀ s blks, (∀ x ∈ blks, x.length = 64) → 64 * blks.length ≤ maxLen → comp s blks = Md5.compress s blks)
    (l : List Bytes) (hl : ∀ x ∈ l, x.length ≤ maxLen) :
    (coreMd5 comp).finish ((coreMd5 comp).updates (coreMd5 comp).new l) = Md5.md5.finish (Md5.md5.updates Md5.md5.new l) := by
  refine Core.backend_eq (d := coreMd5 comp) Md5.lawful rfl rfl rfl (N := maxLen) (show 64 ≤ maxLen by decide) ?_ ?_ l hl
  · intro s blks hb hn
    exact congrArg (Md5.State.mk _ ·) (h s.state blks hb hn).symm
  · intro s b wf
    refine congrArg (fun z : V4 W32 => bytesOfWordsLE z.toList) ?_
    refine BlockBuffer.digestPad_comp_congr (σ := V4 W32) (bs := 64) wf (by simp) (fun s x hx => (h s [x] (by simpa using hx) (show 64 * 1 ≤ maxLen by decide)).symm) _

end Backends
end Hashes
