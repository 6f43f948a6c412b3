import Verif.Checked.Xof
import Verif.Proof.Rust
import Verif.Proof.Xof
import Verif.Proof.Ascon
import Verif.Proof.K12
import Verif.Proof.Checked.Keccak
/- The checked reader computes what the reader of Model/Xof.lean computes, whatever the caller's buffers contain. -/
namespace Hashes.Rs.XofC
variable {ρ : Type} {x : XofC ρ} {y : XofCore ρ} {inv : ρ → Prop}

/-- Same block size, and no panic on states with the invariant. -/
structure Of (x : XofC ρ) (y : XofCore ρ) (inv : ρ → Prop) : Prop where
  bs : x.bs = y.bs
  block : ∀ r, inv r → x.readBlock r = some (y.readBlock r)

theorem blocksC_eq (L : y.Lawful inv) (h : Of x y inv) (l : List Bytes) (hl : ∀ b ∈ l, b.length = y.bs) {r : ρ} (hr : inv r) :
    x.blocksC r l = some (y.readBlocks l.length r) := by
  induction l generalizing r with
  | nil => rfl
  | cons b l ih =>
    refine bind_ok (h.block r hr) ?_
    refine bind_ok (copy_all (by rw [L.len r hr, hl b List.mem_cons_self])) ?_
    exact bind_ok (ih (fun c hc => hl c (List.mem_cons_of_mem _ hc)) (L.next r hr)) rfl

theorem restC_eq (L : y.Lawful inv) (h : Of x y inv) {rd : Reader ρ} (hr : inv rd.core) (data : Bytes) :
    x.restC rd data = some (
      let blks := y.readBlocks (data.length / y.bs) rd.core
      if data.length % y.bs = 0 then (blks.1, { rd with core := blks.2, pos := y.bs })
      else
        let b := y.readBlock blks.2
        (blks.1 ++ b.1.take (data.length % y.bs), ⟨b.2, b.1, data.length % y.bs⟩)) := by
  have hdm := Nat.div_add_mod' data.length y.bs
  have hlt := Nat.mod_lt data.length L.bs_pos
  have hi := (XofCore.length_stream L (data.length / y.bs) rd.core hr).2
  rw [restC, h.bs]
  refine bind_ok (blocksC_eq L h _ (fun _ hb => length_of_mem_chunks hb) hr) ?_
  rw [length_chunks]
  refine bind_ok (slice_le (by omega) (Nat.le_refl _)) ?_
  have hn : ((data.drop (data.length / y.bs * y.bs)).take (data.length - data.length / y.bs * y.bs)).length = data.length % y.bs := by
    rw [List.length_take, List.length_drop]; omega
  dsimp only
  rw [hn]
  by_cases ht : data.length % y.bs = 0
  · rw [if_neg (by simpa using ht), if_pos ht]; rfl
  · rw [if_pos ht, if_neg ht]
    refine bind_ok (h.block _ hi) ?_
    have hb := L.len _ hi
    refine bind_ok (slice_le (Nat.zero_le _) (by rw [hb]; omega)) ?_
    refine bind_ok (v := (y.readBlock (y.readBlocks (data.length / y.bs) rd.core).2).1.take (data.length % y.bs)) ?_ rfl
    rw [show data.length % y.bs = _ from hn.symm, copy_all (by
      rw [hn, List.drop_zero, List.length_take, hb]; omega), hn, List.drop_zero, Nat.sub_zero]

theorem readC_eq (L : y.Lawful inv) (h : Of x y inv) {rd : Reader ρ} (wf : y.WF inv rd) (data : Bytes) :
    x.readC rd data = some (y.read rd data.length) := by
  obtain ⟨hb, hp, hi⟩ := wf
  rw [readC, h.bs]
  refine bind_ok (usub_le hp) ?_
  by_cases h0 : y.bs - rd.pos ≠ 0
  · rw [if_pos h0]
    have hc := slice_le (a := rd.buf) (i := rd.pos) (j := rd.buf.length) (by omega) (Nat.le_refl _)
    rw [List.take_of_length_le (Nat.le_of_eq List.length_drop)] at hc
    refine bind_ok hc ?_
    by_cases hn : data.length < y.bs - rd.pos
    · rw [if_pos hn]
      refine bind_ok (slice_le (Nat.zero_le _) (by rw [List.length_drop]; omega)) ?_
      refine bind_ok (copy_all (by rw [List.drop_zero, List.length_take, List.length_drop]; omega)) ?_
      have hm : min (y.bs - rd.pos) data.length = data.length := by omega
      simp only [XofCore.read, hm, Nat.sub_self, Nat.zero_mod, Nat.zero_div, if_true, XofCore.readBlocks, List.append_nil,
        List.drop_zero, Nat.sub_zero]
      rfl
    · rw [if_neg hn]
      have hm : min (y.bs - rd.pos) data.length = y.bs - rd.pos := by omega
      refine bind_ok (slice_le (Nat.zero_le _) (by omega)) ?_
      refine bind_ok (slice_le (by omega) (Nat.le_refl _)) ?_
      have hl : ((data.drop 0).take (y.bs - rd.pos - 0)).length = y.bs - rd.pos := by
        rw [List.drop_zero, List.length_take]; omega
      refine bind_ok (v := rd.buf.drop rd.pos) ?_ ?_
      · conv => lhs; rw [show copy ((data.drop 0).take (y.bs - rd.pos - 0)) 0 (y.bs - rd.pos) _ = copy ((data.drop 0).take (y.bs - rd.pos - 0)) 0 ((data.drop 0).take (y.bs - rd.pos - 0)).length _ from by rw [hl]]
        exact copy_all (by rw [hl, List.length_drop]; omega)
      · refine bind_ok (restC_eq L h hi _) ?_
        have hr : ((data.drop (y.bs - rd.pos)).take (data.length - (y.bs - rd.pos))).length = data.length - (y.bs - rd.pos) := by
          rw [List.length_take, List.length_drop]; omega
        have hf : (rd.buf.drop rd.pos).take (y.bs - rd.pos) = rd.buf.drop rd.pos := List.take_of_length_le (by rw [List.length_drop]; omega)
        simp only [hr, XofCore.read, hm, hf]
        split
        · rw [show rd.pos + (y.bs - rd.pos) = y.bs by omega]; rfl
        · simp only [List.append_assoc]; rfl
  · rw [if_neg h0, restC_eq L h hi]
    have hm : min (y.bs - rd.pos) data.length = 0 := by omega
    have h1 : rd.pos = y.bs := by omega
    simp only [XofCore.read, hm, Nat.sub_zero, List.take_zero, List.nil_append, Nat.add_zero]
    rw [h1]

theorem readsC_eq (L : y.Lawful inv) (h : Of x y inv) {rd : Reader ρ} (wf : y.WF inv rd) (l : List Bytes) :
    x.readsC rd l = some (y.reads rd (l.map List.length)) := by
  induction l generalizing rd with
  | nil => rfl
  | cons d l ih =>
    refine bind_ok (readC_eq L h wf d) ?_
    exact bind_ok (ih (XofCore.read_spec L wf d.length).2.1) rfl

theorem output_eq (L : y.Lawful inv) (h : Of x y inv) {r : ρ} (hr : inv r) (l : List Bytes) :
    x.output r l = some (y.reads (y.reader r) (l.map List.length)).1 := by
  have e : x.reader r = y.reader r := by rw [reader, XofCore.reader, h.bs]
  rw [output, e, readsC_eq L h (XofCore.WF.reader hr)]; rfl

end Hashes.Rs.XofC

namespace Hashes
open Rs

theorem Sha3.xofC_of {f : Sha3.Lanes → Sha3.Lanes} {rate : Nat} (hr : rate ≤ 200) :
    XofC.Of (Sha3.xofC f rate) (Sha3.xof f rate) (fun s => s.length = 25) where
  bs := rfl
  block := fun s hs => bind_ok (Sha3.asBytesC_eq (by simp only [List.length_replicate, hs]; exact hr))
    (by simp only [List.length_replicate]; rfl)

theorem Ascon.readerC_of (P : Ascon.State → Ascon.State) : XofC.Of (Ascon.readerC P) (Ascon.reader P) (fun _ => True) where
  bs := rfl
  block := fun _ _ => rfl

theorem K12.xofC_of : XofC.Of K12.xofC K12.xof ((Sha3.xof Sha3.f12 168).WF (fun s => s.length = 25)) where
  bs := rfl
  block := fun r hr => by
    have e := XofC.readC_eq (Sha3.xof_lawful Sha3.perm12 (rate := 168) (by decide) (by decide)) (Sha3.xofC_of (by decide)) hr
      (List.replicate 168 (0 : Byte))
    rw [List.length_replicate] at e
    exact e

end Hashes
