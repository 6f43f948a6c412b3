import Verif.Checked.Streebog
import Verif.Proof.Rust
import Verif.Proof.BlockBuffer
import Verif.Proof.Words
/- No check of Checked/Streebog.lean fails. -/
namespace Hashes.Streebog
open Rs

theorem row_table {j : Nat} (hj : j < 8) : idx SHUFFLED_LIN_TABLE j = some (SHUFFLED_LIN_TABLE.getD j []) :=
  idx_lt [] (by simp [SHUFFLED_LIN_TABLE]; exact hj)

theorem length_row {j : Nat} (hj : j < 8) : (SHUFFLED_LIN_TABLE.getD j []).length = 256 := by
  rw [SHUFFLED_LIN_TABLE, getD_map_range [] _ hj]; simp

theorem lpsC_eq (h n : V8 W64) : lpsC h.toList n.toList = some (lps h n).toList := by
  have e : (loop 8 h.toList fun h i => do upd h i ((← idx h i) ^^^ (← idx n.toList i))) =
      some (V8.zip (· ^^^ ·) h n).toList :=
    modify_v8 (fun i x => x ^^^ n.get i) fun i l hi hl e => bind_ok e <| bind_ok (idx_v8 _ hi) (upd_lt (by omega))
  refine bind_ok e ?_
  rw [lps]
  generalize V8.zip (· ^^^ ·) h n = t
  exact modify_v8 (a := zero) (fun i x => (List.range 8).foldl (fun b j =>
    b ^^^ (SHUFFLED_LIN_TABLE.getD j []).getD ((t.get j >>> (8 * i)) &&& 0xff).toNat 0) x) fun i l hi hl e => by
      rw [idx_lt 0 (by omega)] at e
      rw [← Option.some.inj e]
      refine loop_cell 0 (fun j b => b ^^^ (SHUFFLED_LIN_TABLE.getD j []).getD ((t.get j >>> (8 * i)) &&& 0xff).toNat 0)
        (by omega) fun j l hj hl' => ?_
      exact bind_ok (idx_v8 _ hj) <| bind_ok (shr_lt (by omega)) <| bind_ok (idx_lt 0 (by omega)) <|
        bind_ok (row_table hj) <| bind_ok (idx_lt 0 (by
          rw [length_row hj, BitVec.toNat_and]
          exact Nat.lt_of_le_of_lt Nat.and_le_right (by decide))) (upd_lt (by omega))

theorem keys_eq (l : List (V8 W64)) (k b : V8 W64) :
    l.foldlM (fun (kb : List W64 × List W64) c => do
      let block ← lpsC kb.2 kb.1
      let key ← lpsC kb.1 c.toList
      pure (key, block)) (k.toList, b.toList) =
    some ((l.foldl (fun (kb : V8 W64 × V8 W64) c => (lps kb.1 c, lps kb.2 kb.1)) (k, b)).1.toList,
      (l.foldl (fun (kb : V8 W64 × V8 W64) c => (lps kb.1 c, lps kb.2 kb.1)) (k, b)).2.toList) := by
  induction l generalizing k b with
  | nil => rfl
  | cons c l ih =>
    rw [List.foldlM_cons]
    exact bind_ok (bind_ok (lpsC_eq b k) <| bind_ok (lpsC_eq k c) rfl) (ih _ _)

theorem gC_eq (h n m : V8 W64) : gC h.toList n.toList m.toList = some (g h n m).toList := by
  refine bind_ok (lpsC_eq h n) <| bind_ok (keys_eq C64 (lps h n) m) ?_
  rw [g]
  generalize C64.foldl _ _ = kb
  exact modify_v8 (fun i x => x ^^^ (kb.2.get i ^^^ kb.1.get i ^^^ m.get i)) fun i l hi hl e =>
    bind_ok e <| bind_ok (idx_v8 _ hi) <| bind_ok (idx_v8 _ hi) <| bind_ok (idx_v8 _ hi) (upd_lt (by omega))

theorem updateSigmaC_eq (sigma m : V8 W64) : updateSigmaC sigma.toList m.toList = some (updateSigma sigma m).toList := by
  refine bind_ok (loop_scan 0 (fun i c x => adc x (m.get i) c) (length_v8 _) fun i l u hi hl =>
    bind_ok (idx_lt 0 (hl.symm ▸ hi)) <| bind_ok (idx_v8 _ hi) <| bind_ok (upd_lt (hl.symm ▸ hi)) rfl) ?_
  simp [scan, V8.toList, updateSigma, addLimbs, V8.ofFn, V8.get]

theorem updateNC_eq (n : V8 W64) {len : W64} (h : len.toNat ≤ 64) : updateNC n.toList len = some (updateN n len).toList := by
  have hm : mul 8 len = some (8 * len) := if_pos (by rw [show (8 : W64).toNat = 8 from rfl]; omega)
  rw [updateNC, hm]
  simp [loop, List.range, List.range.loop, idx, upd, V8.toList, updateN, addLimbs, V8.ofFn]

theorem fromBytesC_eq {b : Bytes} (hb : b.length = 64) : fromBytesC b = some (fromBytes b).toList := load_v8_le rfl hb

theorem toBytesC_eq (b : V8 W64) : toBytesC b.toList = some (toBytes b) :=
  store_eq (n := 8) (by decide) rfl rfl fun x => by simp

theorem compressC_eq (s : State) {block : Bytes} (hb : block.length = 64) {len : W64} (hl : len.toNat ≤ 64) :
    compressC s.h.toList s.n.toList s.sigma.toList block len =
      some ((compress s block len).h.toList, (compress s block len).n.toList, (compress s block len).sigma.toList) :=
  bind_ok (fromBytesC_eq hb) <| bind_ok (gC_eq _ _ _) <| bind_ok (updateNC_eq _ hl) <| bind_ok (updateSigmaC_eq _ _) rfl

theorem finalizeC_eq (s : State) {buffer : BlockBuffer} (hw : buffer.WF .eager 64) {out : Bytes} (ho : out.length = 64) :
    finalizeC s.h.toList s.n.toList s.sigma.toList buffer out = some (finalizeFull s buffer) := by
  have hp : buffer.pos < 64 := hw.2
  have hl : (buffer.padWithZeros 64).1.length = 64 := by
    simp [BlockBuffer.padWithZeros, hw.1]; omega
  have hn : (BitVec.ofNat 64 buffer.pos).toNat ≤ 64 := by
    rw [BitVec.toNat_ofNat]; exact Nat.le_trans (Nat.mod_le _ _) (by omega)
  have ht (b : V8 W64) : (toBytes b).length = out.length := by rw [toBytes, length_bytesOfWordsLE, ho]; rfl
  exact bind_ok (upd_lt (by omega)) <| bind_ok (compressC_eq s (by simpa using hl) hn) <| bind_ok (gC_eq _ zero _) <|
    bind_ok (gC_eq _ zero _) <| bind_ok (toBytesC_eq _) (copy_all (ht _))

end Hashes.Streebog
