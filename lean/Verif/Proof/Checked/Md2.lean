import Verif.Checked.Md2
import Verif.Proof.Rust
import Verif.Proof.Md2
namespace Hashes.Md2
open Rs

theorem S_length : S.length = 256 := by decide +kernel

theorem idx_S (i : Byte) : idx S i.toNat = some (s i) := idx_lt 0 (by rw [S_length]; exact i.isLt)

theorem scan_pass (l : Bytes) (t : Byte) (i : Nat) :
    scan (fun _ t (b : Byte) => (b ^^^ s t, b ^^^ s t)) i l t = pass l t := by
  induction l generalizing t i with
  | nil => rfl
  | cons b l ih => simp only [scan, pass, ih]

theorem scan_checksum (block : Bytes) (l : Bytes) (t : Byte) (i : Nat) (h : i + l.length = block.length) :
    (scan (fun i t (b : Byte) => (b ^^^ s (block.getD i 0 ^^^ t), b ^^^ s (block.getD i 0 ^^^ t))) i l t).1 =
      checksumLoop (l.zip (block.drop i)) t := by
  induction l generalizing t i with
  | nil => rfl
  | cons b l ih =>
    have hi : i < block.length := by simp at h; omega
    rw [List.drop_eq_getElem_cons hi]
    simp only [scan, List.zip_cons_cons, checksumLoop]
    rw [ih _ _ (by simp at h; omega)]
    have : block.getD i 0 = block[i] := by simp [List.getD_eq_getElem?_getD, hi]
    rw [this]

theorem pass_length (l : Bytes) (t : Byte) : (pass l t).1.length = l.length := by
  induction l generalizing t with
  | nil => rfl
  | cons b l ih => simp [pass, ih]

theorem rounds_length (x : Bytes) (n : Nat) : (rounds x n).1.length = x.length := by
  induction n with
  | zero => rfl
  | succ n ih => simp only [rounds, pass_length, ih]

theorem compressC_eq {st : State} {block : Bytes} (hx : st.x.length = 48) (hc : st.checksum.length = 16)
    (hb : block.length = 16) : compressC st block = some (compress st block) := by
  have h1 : (loop 16 st.x fun x j => do
      let x ← upd x (16 + j) (← idx block j)
      upd x (32 + j) ((← idx x (16 + j)) ^^^ (← idx x j))) =
      some (st.x.take 16 ++ block ++ List.zipWith (· ^^^ ·) block (st.x.take 16)) := by
    obtain ⟨u, e, hu, g⟩ := loop_ind (n := 16) (s := st.x) (f := fun x j => do
        let x ← upd x (16 + j) (← idx block j)
        upd x (32 + j) ((← idx x (16 + j)) ^^^ (← idx x j)))
      (fun k x => x.length = 48 ∧ ∀ j, x.getD j 0 = if j < 16 then st.x.getD j 0 else if j < 16 + k then block.getD (j - 16) 0
        else if j < 32 then st.x.getD j 0 else if j < 32 + k then block.getD (j - 32) 0 ^^^ st.x.getD (j - 32) 0
        else st.x.getD j 0) ⟨hx, fun j => by
        by_cases c1 : j < 16 <;> by_cases c2 : j < 32 <;> simp [c1, c2]⟩
      fun i t hi ⟨h1, h2⟩ => by
        refine ⟨(t.set (16 + i) (block.getD i 0)).set (32 + i) (block.getD i 0 ^^^ st.x.getD i 0), ?_, by simpa using h1, fun j => ?_⟩
        · show (idx block i).bind _ = _
          rw [idx_lt 0 (by omega), Option.bind_some, upd_lt (by omega)]
          show (idx _ (16 + i)).bind _ = _
          rw [idx_lt 0 (by simp; omega), Option.bind_some]
          show (idx _ i).bind _ = _
          rw [idx_lt 0 (by simp; omega), Option.bind_some, upd_lt (by simp; omega)]
          rw [getD_set, getD_set, if_pos ⟨rfl, by omega⟩, if_neg (by omega), h2 i, if_pos hi]
        · rw [getD_set, getD_set, h2 j, List.length_set, h1]
          by_cases a : 32 + i = j
          · subst a
            rw [if_pos ⟨rfl, by omega⟩, if_neg (by omega), if_neg (by omega), if_neg (by omega), if_pos (by omega),
              show 32 + i - 32 = i by omega]
          · rw [if_neg (by simp [a])]
            by_cases b : 16 + i = j
            · subst b
              rw [if_pos ⟨rfl, by omega⟩, if_neg (by omega), if_pos (by omega), show 16 + i - 16 = i by omega]
            · rw [if_neg (by simp [b])]
              by_cases c1 : j < 16
              · simp only [if_pos c1]
              · by_cases c2 : j < 16 + i
                · simp only [if_neg c1, if_pos c2, if_pos (show j < 16 + (i + 1) by omega)]
                · by_cases c3 : j < 32
                  · simp only [if_neg c1, if_neg c2, if_neg (show ¬ j < 16 + (i + 1) by omega), if_pos c3]
                  · by_cases c4 : j < 32 + i
                    · simp only [if_neg c1, if_neg c2, if_neg (show ¬ j < 16 + (i + 1) by omega), if_neg c3, if_pos c4,
                        if_pos (show j < 32 + (i + 1) by omega)]
                    · simp only [if_neg c1, if_neg c2, if_neg (show ¬ j < 16 + (i + 1) by omega), if_neg c3, if_neg c4,
                        if_neg (show ¬ j < 32 + (i + 1) by omega)]
    rw [e]
    congr 1
    refine ext_getD 0 (by simp [hx, hb, hu]) fun j hj => ?_
    rw [g j]
    have ht : (st.x.take 16).length = 16 := by simp [hx]
    have hz : (st.x.take 16 ++ block).length = 32 := by simp [hx, hb]
    rw [getD_append, getD_append, hz, ht, getD_take]
    by_cases c1 : j < 16
    · simp only [if_pos c1, if_pos (show j < 32 by omega)]
    · by_cases c2 : j < 32
      · simp only [if_neg c1, if_pos c2]
      · simp only [if_neg c1, if_neg (show ¬ j < 16 + 16 by omega), if_pos (show j < 32 + 16 by omega)]
        rw [getD_zipWith 0 _ (by omega) (by omega), getD_take, if_pos (by omega)]
  have h2 (x : Bytes) (hx : x.length = 48) : (loop 18 (x, (0 : Byte)) fun (x, t) j => do
      let (x, t) ← loop 48 (x, t) fun (x, t) k => do
        let x ← upd x k ((← idx x k) ^^^ (← idx S t.toNat))
        let t ← idx x k
        pure (x, t)
      pure (x, t + BitVec.ofNat 8 j)) = some (rounds x 18) := by
    have hl (x : Bytes) (t : Byte) (hx : x.length = 48) : (loop 48 (x, t) fun (x, t) k => do
        let x ← upd x k ((← idx x k) ^^^ (← idx S t.toNat))
        let t ← idx x k
        pure (x, t)) = some (pass x t) := by
      rw [← scan_pass x t 0]
      refine loop_scan 0 _ hx fun i l u hi hl => ?_
      show (idx l i).bind _ = _
      rw [idx_lt 0 (by omega), Option.bind_some]
      show (idx S u.toNat).bind _ = _
      rw [idx_S, Option.bind_some, upd_lt (by omega)]
      show (idx (l.set i _) i).bind _ = _
      rw [idx_lt 0 (by simp; omega), getD_set, if_pos ⟨rfl, by omega⟩]
      rfl
    have := (loop_inv (n := 18) (s := (x, (0 : Byte))) (f := fun (x, t) j => do
      let (x, t) ← loop 48 (x, t) fun (x, t) k => do
        let x ← upd x k ((← idx x k) ^^^ (← idx S t.toNat))
        let t ← idx x k
        pure (x, t)
      pure (x, t + BitVec.ofNat 8 j)) (fun r j => ((pass r.1 r.2).1, (pass r.1 r.2).2 + BitVec.ofNat 8 j))
      (fun k r => r = rounds x k) rfl (by
        rintro i t _ rfl
        refine ⟨?_, rfl⟩
        show (loop 48 ((rounds x i).1, (rounds x i).2) _).bind _ = _
        rw [hl _ _ (by rw [rounds_length, hx])]
        rfl))
    rw [this.1, this.2]
  have h3 : (loop 16 (st.checksum, st.checksum.getD 15 0) fun (c, l) j => do
      let c ← upd c j ((← idx c j) ^^^ (← idx S ((← idx block j) ^^^ l).toNat))
      let l ← idx c j
      pure (c, l)) = some (scan (fun i t (b : Byte) => (b ^^^ s (block.getD i 0 ^^^ t), b ^^^ s (block.getD i 0 ^^^ t))) 0
        st.checksum (st.checksum.getD 15 0)) := by
    refine loop_scan 0 _ hc fun i l u hi hl => ?_
    show (idx l i).bind _ = _
    rw [idx_lt 0 (by omega), Option.bind_some]
    show (idx block i).bind _ = _
    rw [idx_lt 0 (by omega), Option.bind_some]
    show (idx S (block.getD i 0 ^^^ u).toNat).bind _ = _
    rw [idx_S, Option.bind_some, upd_lt (by omega)]
    show (idx (l.set i _) i).bind _ = _
    rw [idx_lt 0 (by simp; omega), getD_set, if_pos ⟨rfl, by omega⟩]
    rfl
  have e := scan_checksum block st.checksum (st.checksum.getD 15 0) 0 (by omega)
  rw [List.drop_zero] at e
  rw [compressC, h1, compress]
  dsimp only
  rw [← e]
  show (loop 18 _ _).bind _ = _
  rw [h2 _ (by simp [hx, hb]), Option.bind_some]
  generalize rounds _ 18 = r
  show (idx st.checksum 15).bind _ = _
  rw [idx_lt 0 (by omega), Option.bind_some]
  show (loop 16 _ _).bind _ = _
  rw [h3, Option.bind_some]
  rfl

theorem compress_lengths {st : State} {block : Bytes} (hx : st.x.length = 48) (hc : st.checksum.length = 16)
    (hb : block.length = 16) : (compress st block).x.length = 48 ∧ (compress st block).checksum.length = 16 := by
  constructor
  · simp [compress, rounds_length, hx, hb]
  · have e := scan_checksum block st.checksum (st.checksum.getD 15 0) 0 (by omega)
    rw [List.drop_zero] at e
    have hs : ∀ (φ : Nat → Byte → Byte → Byte × Byte) (l : Bytes) (i : Nat) (t : Byte), (scan φ i l t).1.length = l.length := by
      intro φ l
      induction l with
      | nil => intros; rfl
      | cons b l ih => intro i t; simp [scan, ih]
    show (checksumLoop _ _).length = 16
    rw [← e, hs, hc]

theorem finalizeC_eq {st : State} {b : BlockBuffer} (hx : st.x.length = 48) (hc : st.checksum.length = 16)
    (wf : b.WF .eager 16) : finalizeC st b = some (finalize st b) := by
  have hp : b.pos < 16 := wf.2
  have hl : ((b.padWithZeros 16).1).length = 16 := by
    simp only [BlockBuffer.padWithZeros, List.length_append, List.length_replicate, List.length_take, wf.1]
    omega
  rw [finalizeC, slice_le (by omega) (by omega)]
  show (copy _ _ _ _).bind _ = _
  rw [copy_le (by omega) (by omega) (by simp; omega), Option.bind_some, List.drop_eq_nil_of_le (as := (b.padWithZeros 16).1) (i := 16) (by omega), List.append_nil]
  have ht : List.take (16 - b.pos) (List.drop b.pos (b.padWithZeros 16).1) = List.drop b.pos (b.padWithZeros 16).1 :=
    List.take_of_length_le (by simp; omega)
  rw [ht]
  have hb : (List.take b.pos (b.padWithZeros 16).1 ++
      List.map (fun _ => BitVec.ofNat 8 (16 - b.pos)) (List.drop b.pos (b.padWithZeros 16).1)).length = 16 := by
    simp [hl]; omega
  show (compressC _ _).bind _ = _
  have h1 := compress_lengths hx hc hb
  rw [compressC_eq hx hc hb, Option.bind_some]
  show (compressC _ _).bind _ = _
  rw [compressC_eq h1.1 h1.2 h1.2, Option.bind_some, slice_le (by omega) (by rw [(compress_lengths h1.1 h1.2 h1.2).1]; omega)]
  rfl

end Hashes.Md2
