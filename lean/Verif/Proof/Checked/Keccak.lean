import Verif.Proof.Rust
import Verif.Proof.Checked.Digest
import Verif.Proof.CShake
import Verif.Checked.Keccak
/- The checked transcription of the crate sha3 equals the model: C60. -/
namespace Hashes.Sha3
open Rs

theorem xorLanesC_eq {l : List Bytes} (h : ∀ b ∈ l, b.length = 8) (s : Lanes) : xorLanesC l s = some (xorLanes l s) := by
  induction l generalizing s with
  | nil => rfl
  | cons b l ih =>
    cases s with
    | nil => rfl
    | cons x s => exact bind_ok (if_pos (h b List.mem_cons_self)) <| bind_ok (ih (fun c hc => h c (List.mem_cons_of_mem _ hc)) s) rfl

theorem mem_blocks_length {n k : Nat} {l : Bytes} (h : n * k ≤ l.length) : ∀ b ∈ blocks n k l, b.length = n := by
  induction k generalizing l with
  | zero => intro b hb; cases hb
  | succ k ih =>
    rw [Nat.mul_succ] at h
    intro b hb
    rcases List.mem_cons.mp hb with rfl | hb
    · rw [List.length_take]; omega
    · exact ih (by rw [List.length_drop]; omega) b hb

theorem absorbBlockC_eq (f : Lanes → Lanes) (s : Lanes) {block : Bytes} (h : block.length % 8 = 0) :
    absorbBlockC f s block = some (absorbBlock f s block) :=
  bind_ok (check_of h) <| bind_ok (xorLanesC_eq (mem_blocks_length (Nat.mul_div_le _ _)) s) rfl

theorem chunksMut8_cons {out : Bytes} (h : out ≠ []) : chunksMut8 out = out.take 8 :: chunksMut8 (out.drop 8) := by
  have h0 : 0 < out.length := List.length_pos_iff.mpr h
  unfold chunksMut8
  have e : (out.length + 7) / 8 = ((out.drop 8).length + 7) / 8 + 1 := by rw [List.length_drop]; omega
  rw [e, List.range_succ_eq_map, List.map_cons, List.map_map]
  congr 1
  apply List.map_congr_left
  intro i _
  simp only [Function.comp, List.drop_drop, Nat.succ_eq_add_one]
  rw [Nat.mul_succ, Nat.add_comm]

theorem asBytesC_eq {s : Lanes} {out : Bytes} (h : out.length ≤ 8 * s.length) : asBytesC s out = some (asBytes out.length s) := by
  have key : ∃ l, asBytesLoopC (chunksMut8 out) s = some l ∧ l.flatten = asBytes out.length s := by
    induction s generalizing out with
    | nil =>
      have : out = [] := List.length_eq_zero_iff.mp (by simpa using h)
      subst this
      exact ⟨_, rfl, rfl⟩
    | cons x s ih =>
      by_cases ho : out = []
      · subst ho
        obtain ⟨l, e, e'⟩ := ih (out := []) (by simp)
        refine ⟨[], rfl, ?_⟩
        have z : ∀ (s : Lanes), asBytes 0 s = [] := fun s => by
          induction s with
          | nil => rfl
          | cons y s ih => rw [asBytes, ih]; rfl
        rw [List.flatten_nil, List.length_nil, z]
      · obtain ⟨l, e, e'⟩ := ih (out := out.drop 8) (by simp only [List.length_drop, List.length_cons] at h ⊢; omega)
        rw [chunksMut8_cons ho]
        have l8 : (out.take 8).length = min 8 out.length := List.length_take ..
        refine ⟨_, bind_ok (slice_le (Nat.zero_le _) (by simp; omega)) <| bind_ok (copy_all (by simp)) <| bind_ok e rfl, ?_⟩
        rw [List.flatten_cons, e', List.length_drop, asBytes, l8]
        rfl
  obtain ⟨l, e, e'⟩ := key
  exact bind_ok e (congrArg some e')

theorem lastBlockC_eq {bs : Nat} {buffer : BlockBuffer} (hd : buffer.data.length = bs) (hp : buffer.pos < bs) (pad : Byte) :
    lastBlockC bs buffer pad = some (lastBlock bs buffer pad) ∧ (lastBlock bs buffer pad).length = bs := by
  have l : (buffer.padWithZeros bs).1.length = bs := by simp [BlockBuffer.padWithZeros]; omega
  refine ⟨bind_ok (upd_lt (by omega)) <| bind_ok (usub_le (by rw [List.length_set]; omega)) <| bind_ok (idx_lt 0 (by rw [List.length_set]; omega)) <|
    (upd_lt (by rw [List.length_set]; omega)).trans rfl, ?_⟩
  unfold lastBlock
  simp only [List.length_set]
  exact l

theorem finalizeC_eq (f : Lanes → Lanes) {rate : Nat} (hr : rate % 8 = 0) (pad : Byte) {s : Lanes} {buffer : BlockBuffer}
    (hd : buffer.data.length = rate) (hp : buffer.pos < rate) {out : Bytes}
    (hl : out.length ≤ 8 * (absorbBlock f s (lastBlock rate buffer pad)).length) :
    finalizeC f rate pad s buffer out = some (asBytes out.length (absorbBlock f s (lastBlock rate buffer pad))) :=
  bind_ok (lastBlockC_eq hd hp pad).1 <| bind_ok (absorbBlockC_eq f s (by rw [(lastBlockC_eq hd hp pad).2]; exact hr)) (asBytesC_eq hl)

theorem finalizeXofC_eq (f : Lanes → Lanes) {rate : Nat} (hr : rate % 8 = 0) (pad : Byte) (s : Lanes) {buffer : BlockBuffer}
    (hd : buffer.data.length = rate) (hp : buffer.pos < rate) :
    finalizeXofC f rate pad s buffer = some (absorbBlock f s (lastBlock rate buffer pad)) :=
  bind_ok (lastBlockC_eq hd hp pad).1 (absorbBlockC_eq f s (by rw [(lastBlockC_eq hd hp pad).2]; exact hr))

theorem zeroRun_le (l : Bytes) : zeroRun l ≤ l.length := by
  induction l with
  | nil => exact Nat.le_refl _
  | cons b l ih => rw [zeroRun]; split <;> simp <;> omega

theorem leftEncodeC_eq (val : W64) {b : Bytes} (hb : b.length = 9) : leftEncodeC val b = some (leftEncode val b) := by
  have l1 : (b.take 1 ++ beBytes 8 val.toNat).length = 9 := by simp; omega
  have e1 : copy b 1 b.length (beBytes 8 val.toNat) = some (b.take 1 ++ beBytes 8 val.toNat) := by
    rw [copy_le (by omega) (Nat.le_refl _) (by simp; omega), List.drop_length, List.append_nil]
  have z := zeroRun_le (((b.take 1 ++ beBytes 8 val.toNat).drop 1).take 7)
  rw [List.length_take] at z
  change zeroRun (((b.take 1 ++ beBytes 8 val.toNat).drop 1).take (8 - 1)) ≤ _ at z
  refine bind_ok e1 <| bind_ok (slice_le (by omega) (by omega)) <| bind_ok (usub_le (by omega)) <| bind_ok (upd_lt (by omega)) <|
    bind_ok (slice_le (by simp only [List.length_set]; omega) (Nat.le_refl _)) ?_
  unfold leftEncode
  simp only
  rw [List.take_of_length_le (by rw [List.length_drop]; exact Nat.le_refl _)]
  rfl

theorem bitsC_eq {x : Bytes} (h : x.length * 8 < 2 ^ 64) : bitsC x = some (BitVec.ofNat 64 (x.length * 8)) := by
  rw [bitsC, mul, if_pos]
  · congr 1
    apply BitVec.eq_of_toNat_eq
    simp
  · simp; omega

theorem foldlM_absorb (f : Lanes → Lanes) {rate : Nat} (hr : rate % 8 = 0) (l : List Bytes) (h : ∀ b ∈ l, b.length = rate) (s : Lanes) :
    l.foldlM (absorbBlockC f) s = some (updateBlocks f s l) :=
  (foldlM_some (absorbBlock f) (fun _ => True) trivial fun b hb t _ => ⟨absorbBlockC_eq f t (by rw [h b hb]; exact hr), trivial⟩).1

theorem feedC_eq (f : Lanes → Lanes) {rate : Nat} (h0 : 0 < rate) (hr : rate % 8 = 0) {a : BlockBuffer × Lanes} (wf : a.1.WF .eager rate)
    (d : Bytes) : feedC f rate a d = some (a.1.digestBlocks .eager rate d (updateBlocks f) a.2) := by
  unfold feedC
  rw [digestBlocks_option h0 wf d (absorbBlockC f) (updateBlocks f) a.2 (fun _ => rfl)
    (fun s x y => (List.foldl_append ..).symm)
    (foldlM_absorb f hr _ (mem_blocks_length (by rw [nFull]; exact Nat.mul_div_le _ _)) _)]
  rfl

theorem CShake.newC_eq (f : Lanes → Lanes) {rate : Nat} (h0 : 0 < rate) (hr : rate % 8 = 0) {name cust : Bytes}
    (hn : name.length * 8 < 2 ^ 64) (hc : cust.length * 8 < 2 ^ 64) : CShake.newC f rate name cust = some (CShake.new f rate name cust) := by
  unfold CShake.newC CShake.new
  extract_lets st0 st feed b a0 e0 a1 e1 a2 a3 e2 a4 a5 s
  by_cases h : name.isEmpty ∧ cust.isEmpty
  · rw [if_pos h, if_pos h]
  rw [if_neg h, if_neg h]
  have wf : ∀ (a : BlockBuffer × Lanes) (d : Bytes), a.1.WF .eager rate → (feed a d).1.WF .eager rate := fun a d w =>
    (BlockBuffer.digestBlocks_spec h0 w d (updateBlocks f) a.2 (fun _ => rfl) (fun s x y => (List.foldl_append ..).symm)).1
  have w0 : a0.1.WF .eager rate := BlockBuffer.WF.empty h0
  have l0 : e0.2.length = 9 := (leftEncode_eq _ (List.length_replicate ..)).2
  have l1 : e1.2.length = 9 := (leftEncode_eq _ l0).2
  have w1 : a1.1.WF .eager rate := wf _ _ w0
  have w2 : a2.1.WF .eager rate := wf _ _ w1
  have w3 : a3.1.WF .eager rate := wf _ _ w2
  have w4 : a4.1.WF .eager rate := wf _ _ w3
  have w5 : a5.1.WF .eager rate := wf _ _ w4
  refine bind_ok (leftEncodeC_eq _ (List.length_replicate ..)) <| bind_ok (feedC_eq f h0 hr w0 _) <| bind_ok (bitsC_eq hn) <|
    bind_ok (leftEncodeC_eq _ l0) <| bind_ok (feedC_eq f h0 hr w1 _) <| bind_ok (feedC_eq f h0 hr w2 _) <| bind_ok (bitsC_eq hc) <|
    bind_ok (leftEncodeC_eq _ l1) <| bind_ok (feedC_eq f h0 hr w3 _) <| bind_ok (feedC_eq f h0 hr w4 _) <| bind_ok (absorbBlockC_eq f _ ?_) rfl
  have hd : a5.1.data.length = rate := w5.1
  have hp : a5.1.pos < rate := w5.2
  show (a5.1.padWithZeros rate).1.length % 8 = 0
  have : (a5.1.padWithZeros rate).1.length = rate := by simp [BlockBuffer.padWithZeros]; omega
  rw [this]; exact hr

end Hashes.Sha3
