import Verif.Proof.Rust
import Verif.Checked.Ascon
/- The checked transcription of Ascon equals the model: C60. -/
namespace Hashes.Ascon
open Rs

theorem absorbBlockC_eq (P : State → State) (s : State) {block : Bytes} (h : block.length = 8) :
    absorbBlockC P s block = some (absorbBlock P s block) := bind_ok (if_pos h) rfl

theorem xorLastC_eq (s : State) {block : Bytes} (h : block.length < 8) :
    xorLastC s block = some (if block.length > 0 then
      { s with x0 := s.x0 ^^^ BitVec.ofNat 64 (ofLE (block ++ List.replicate (8 - block.length) 0)) } else s) := by
  unfold xorLastC
  split
  · refine bind_ok (v := block ++ List.replicate (8 - block.length) 0) ?_ (bind_ok (if_pos ?_) rfl)
    · rw [copy_le (Nat.zero_le _) (by simp; omega) rfl, List.take_zero, List.nil_append, List.drop_replicate]
    · simp; omega
  · rfl

theorem absorbLastBlockC_eq (P : State → State) (s : State) {block : Bytes} (h : block.length < 8) :
    absorbLastBlockC P s block = some (absorbLastBlock P s block) :=
  bind_ok (check_of h) <| bind_ok (xorLastC_eq s h) <| bind_ok (shl_lt (by omega)) rfl

theorem squeezeLoopC_eq (P : State → State) (k : Nat) (s : State) {out : Bytes} (h : out.length = 8 * (k + 1)) :
    squeezeLoopC P s out = some (squeeze P k s) := by
  induction k generalizing s out with
  | zero =>
    rw [squeezeLoopC, dif_neg (by omega), copy_le (by omega) (by omega) (by simp), List.drop_of_length_le (by omega)]
    simp [squeeze]
  | succ k ih =>
    rw [squeezeLoopC, dif_pos (by omega)]
    refine bind_ok (copy_le (by omega) (by omega) (by simp)) <| bind_ok (slice_le (by omega) (by omega)) <|
      bind_ok (ih (P s) (by simp; omega)) ?_
    simp [squeeze]

theorem squeezeC_eq (P : State → State) (s : State) {out : Bytes} (h : out.length = 32) : squeezeC P s out = some (squeeze P 3 s) :=
  bind_ok (check_of (by omega)) (squeezeLoopC_eq P 3 s h)

theorem finalizeXofC_eq (P : State → State) (s : State) {buffer : BlockBuffer} (hd : buffer.data.length = 8) (hp : buffer.pos < 8) :
    finalizeXofC P s buffer = some (absorbLastBlock P s (buffer.data.take buffer.pos)) :=
  bind_ok (check_of hp) <| bind_ok (slice_le (Nat.zero_le _) (by omega)) <|
    absorbLastBlockC_eq P s (block := buffer.data.take buffer.pos) (by simp; omega)

theorem finalizeC_eq (P : State → State) (s : State) {buffer : BlockBuffer} (hd : buffer.data.length = 8) (hp : buffer.pos < 8)
    {out : Bytes} (ho : out.length = 32) :
    finalizeC P s buffer out = some (squeeze P 3 (absorbLastBlock P s (buffer.data.take buffer.pos))) :=
  bind_ok (finalizeXofC_eq P s hd hp) (squeezeC_eq P _ ho)

end Hashes.Ascon
