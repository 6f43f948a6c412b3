import Verif.Proof.BlockBuffer
import Verif.Spec.Padding
/- `digest_pad` implements the specified padding. -/
namespace Hashes
open Spec

theorem zeroFill_add_mul {bs n k : Nat} : zeroFill bs (n + k * bs) = zeroFill bs n := by
  simp [zeroFill]

theorem zeroFill_dvd {bs n : Nat} (h : 0 < bs) : bs ∣ n + zeroFill bs n := by
  unfold zeroFill
  have h1 := Nat.mod_lt n h
  have h2 := Nat.div_add_mod n bs
  by_cases h0 : n % bs = 0
  · rw [h0]; simp; exact Nat.dvd_of_mod_eq_zero h0
  · rw [Nat.mod_eq_of_lt (by omega : bs - n % bs < bs)]
    refine ⟨n / bs + 1, ?_⟩
    rw [Nat.mul_add]; omega

theorem zeroFill_lt {bs n : Nat} (h : 0 < bs) : zeroFill bs n < bs := Nat.mod_lt _ h

/-- `zeroFill` is the least solution. -/
theorem zeroFill_least {bs n k : Nat} (h : 0 < bs) (hk : bs ∣ n + k) : zeroFill bs n ≤ k := by
  have h1 := Nat.mod_lt n h
  by_cases hlt : bs ≤ k
  · exact Nat.le_trans (Nat.le_of_lt (zeroFill_lt h)) hlt
  · have h3 : (n % bs + k) % bs = 0 := by
      have := Nat.mod_eq_zero_of_dvd hk
      rw [Nat.add_mod] at this
      rwa [Nat.mod_eq_of_lt (by omega : k < bs)] at this
    unfold zeroFill
    by_cases h0 : n % bs = 0
    · rw [h0]; simp
    · rw [Nat.mod_eq_of_lt (by omega : bs - n % bs < bs)]
      have : ¬ (n % bs + k < bs) := by
        intro hh
        rw [Nat.mod_eq_of_lt hh] at h3; omega
      omega

theorem length_mdPad_dvd {bs : Nat} {delim : Byte} {suffix m : Bytes} (h : 0 < bs) :
    bs ∣ (mdPad bs delim suffix m).length := by
  have := zeroFill_dvd (n := m.length + 1 + suffix.length) h
  simp only [mdPad, List.length_append, List.length_replicate, List.length_cons, List.length_nil]
  rw [show m.length + (0 + 1) + zeroFill bs (m.length + 1 + suffix.length) + suffix.length
    = m.length + 1 + suffix.length + zeroFill bs (m.length + 1 + suffix.length) by omega]
  exact this

theorem mdPad_prefix {bs : Nat} {delim : Byte} {suffix a b : Bytes} (h : bs ∣ a.length) :
    mdPad bs delim suffix (a ++ b) = a ++ mdPad bs delim suffix b := by
  obtain ⟨k, hk⟩ := h
  simp only [mdPad, List.append_assoc, List.length_append, hk]
  rw [show bs * k + b.length + 1 + suffix.length = (b.length + 1 + suffix.length) + k * bs by
    rw [Nat.mul_comm]; omega, zeroFill_add_mul]

theorem chunks_mdPad {bs : Nat} (hbs : 0 < bs) {delim : Byte} {suffix m : Bytes} :
    chunks bs (mdPad bs delim suffix m) =
      blocks bs (m.length / bs) m ++ chunks bs (mdPad bs delim suffix (m.drop (m.length / bs * bs))) := by
  have hd : m = m.take (m.length / bs * bs) ++ m.drop (m.length / bs * bs) := by simp
  have hle := Nat.div_mul_le_self m.length bs
  have hl : (m.take (m.length / bs * bs)).length = m.length / bs * bs := by simp; omega
  conv => lhs; rw [hd]
  rw [mdPad_prefix (by rw [hl]; exact Nat.dvd_mul_left ..), chunks_append hbs _ (by rw [hl]; exact Nat.dvd_mul_left ..)]
  congr 1
  simp only [chunks, hl]
  rw [Nat.mul_div_cancel _ hbs]
  have := blocks_append_left bs (m.length / bs) (m.take (m.length / bs * bs)) (m.drop (m.length / bs * bs)) (by omega)
  rw [← this, ← hd]

theorem BlockBuffer.digestPad_spec {σ : Type} {bs : Nat} {b : BlockBuffer} (wf : b.WF .eager bs)
    {delim : Byte} {suffix : Bytes} (hs : suffix.length ≤ bs) (f : σ → Bytes → σ) (s : σ) :
    digestPad bs b delim suffix f s = (chunks bs (mdPad bs delim suffix b.content)).foldl f s := by
  obtain ⟨hl, hp⟩ := wf
  simp only at hp
  have hbs : 0 < bs := by omega
  have hcl : b.content.length = b.pos := by simp [content, hl]; omega
  -- the first padded buffer
  have hbuf : overwrite (b.padWithZeros bs).1 b.pos [delim] =
      b.content ++ [delim] ++ List.replicate (bs - b.pos - 1) 0 := by
    have h1 : (b.content ++ List.replicate (bs - b.pos) (0 : Byte)).take b.pos = b.content := by
      rw [← hcl]; exact List.take_left
    have h2 : (b.content ++ List.replicate (bs - b.pos) (0 : Byte)).drop (b.pos + 1)
        = List.replicate (bs - b.pos - 1) 0 := by
      rw [← List.drop_drop]
      rw [show List.drop b.pos (b.content ++ List.replicate (bs - b.pos) (0 : Byte))
        = List.replicate (bs - b.pos) 0 by conv => lhs; rw [← hcl]; rw [List.drop_left, hcl]]
      simp
    simp only [padWithZeros, overwrite, List.length_cons, List.length_nil, Nat.zero_add]
    show (b.content ++ _).take b.pos ++ [delim] ++ (b.content ++ _).drop (b.pos + 1) = _
    rw [h1, h2]
  simp only [digestPad]
  rw [hbuf]
  split
  · rename_i hlt
    have hz : zeroFill bs (b.content.length + 1 + suffix.length) =
        (bs - b.pos - 1) + (bs - suffix.length) := by
      rw [hcl, zeroFill]
      by_cases he : b.pos + 1 + suffix.length = 2 * bs
      · rw [he]; simp; omega
      · rw [show (b.pos + 1 + suffix.length) % bs = b.pos + 1 + suffix.length - bs by
          rw [Nat.mod_eq_sub_mod (by omega), Nat.mod_eq_of_lt (by omega)]]
        rw [Nat.mod_eq_of_lt (by omega)]; omega
    have hpad : mdPad bs delim suffix b.content =
        (b.content ++ [delim] ++ List.replicate (bs - b.pos - 1) 0) ++
        (List.replicate (bs - suffix.length) 0 ++ suffix) := by
      simp only [mdPad, hz]
      rw [← List.replicate_append_replicate]; simp only [List.append_assoc]
    have hl1 : (b.content ++ [delim] ++ List.replicate (bs - b.pos - 1) (0 : Byte)).length = bs := by
      simp [hcl]; omega
    have hl2 : (List.replicate (bs - suffix.length) (0 : Byte) ++ suffix).length = bs := by
      simp; omega
    rw [hpad, chunks_append hbs _ (by rw [hl1]; exact Nat.dvd_refl _), chunks_single hbs hl1,
      chunks_single hbs hl2]
    have : overwrite (List.replicate bs (0 : Byte)) (bs - suffix.length) suffix =
        List.replicate (bs - suffix.length) 0 ++ suffix := by
      rw [overwrite_full (by simp; omega)]; simp
    rw [this]; rfl
  · rename_i hge
    have hz : zeroFill bs (b.content.length + 1 + suffix.length) = bs - b.pos - 1 - suffix.length := by
      rw [hcl, zeroFill]
      by_cases he : b.pos + 1 + suffix.length = bs
      · rw [he]; simp; omega
      · rw [Nat.mod_eq_of_lt (by omega : b.pos + 1 + suffix.length < bs), Nat.mod_eq_of_lt (by omega)]; omega
    have hpad : mdPad bs delim suffix b.content =
        b.content ++ [delim] ++ List.replicate (bs - b.pos - 1 - suffix.length) 0 ++ suffix := by
      simp only [mdPad, hz]
    have hl1 : (mdPad bs delim suffix b.content).length = bs := by
      rw [hpad]; simp [hcl]; omega
    rw [chunks_single hbs hl1, hpad]
    have : overwrite (b.content ++ [delim] ++ List.replicate (bs - b.pos - 1) (0 : Byte))
        (bs - suffix.length) suffix =
        b.content ++ [delim] ++ List.replicate (bs - b.pos - 1 - suffix.length) 0 ++ suffix := by
      rw [overwrite_full (by simp [hcl]; omega)]
      congr 1
      rw [List.take_append]
      have : (b.content ++ [delim]).length = b.pos + 1 := by simp [hcl]
      rw [this, List.take_of_length_le (by omega)]
      simp only [List.take_replicate]
      congr 2; omega
    rw [this]; rfl

/-- Merkle–Damgård: compress the full blocks, then pad the rest = fold over the padded message. -/
theorem md_finalize {σ : Type} {bs : Nat} (hbs : 0 < bs) {b : BlockBuffer} (wf : b.WF .eager bs)
    {delim : Byte} {suffix : Bytes} (hs : suffix.length ≤ bs) (f : σ → Bytes → σ) (s : σ) (m : Bytes)
    (hb : b.content = m.drop (nFull .eager bs m.length * bs)) :
    BlockBuffer.digestPad bs b delim suffix f ((blocks bs (nFull .eager bs m.length) m).foldl f s) =
      (chunks bs (mdPad bs delim suffix m)).foldl f s := by
  rw [BlockBuffer.digestPad_spec wf hs, hb, chunks_mdPad (m := m) hbs, List.foldl_append]; rfl

end Hashes
