import Verif.Proof.Rust
import Verif.Checked.Tiger
/- The checked transcription of Tiger never panics and agrees with the model. -/
namespace Hashes.Tiger
open Rs

/-- Four tables of 256 words. -/
def IsTables (T : List (List W64)) : Prop := T.length = 4 ∧ ∀ t ∈ T, t.length = 256

variable {T : List (List W64)} (hT : IsTables T)
include hT

theorem lookC_eq {i j : Nat} (hi : i < 4) {c2 : Bytes} (hj : j < c2.length) : lookC T i c2 j = some (look T i c2 j) :=
  bind_ok (idx_lt [] (by rw [hT.1]; exact hi)) <| bind_ok (idx_lt 0 hj) (idx_lt 0 (by
    rw [hT.2 _ (getD_mem [] (by rw [hT.1]; exact hi))]; exact BitVec.isLt _))

theorem roundC_eq (a b c x mul : W64) : roundC T a b c x mul = some (round T a b c x mul) := by
  have h {i j : Nat} (hi : i < 4) (hj : j < 8) := lookC_eq hT hi (c2 := leBytes 8 (c ^^^ x).toNat) (j := j) (by simpa using hj)
  exact bind_ok (h (by decide) (by decide)) <| bind_ok (h (by decide) (by decide)) <| bind_ok (h (by decide) (by decide)) <|
    bind_ok (h (by decide) (by decide)) <| bind_ok (h (by decide) (by decide)) <| bind_ok (h (by decide) (by decide)) <|
    bind_ok (h (by decide) (by decide)) <| bind_ok (h (by decide) (by decide)) rfl

theorem passC_eq (a b c : W64) (x : V8 W64) (mul : W64) : passC T a b c x.toList mul = some (pass T a b c x mul) :=
  bind_ok (idx_v8 x (by decide)) <| bind_ok (roundC_eq hT ..) <| bind_ok (idx_v8 x (by decide)) <| bind_ok (roundC_eq hT ..) <|
  bind_ok (idx_v8 x (by decide)) <| bind_ok (roundC_eq hT ..) <| bind_ok (idx_v8 x (by decide)) <| bind_ok (roundC_eq hT ..) <|
  bind_ok (idx_v8 x (by decide)) <| bind_ok (roundC_eq hT ..) <| bind_ok (idx_v8 x (by decide)) <| bind_ok (roundC_eq hT ..) <|
  bind_ok (idx_v8 x (by decide)) <| bind_ok (roundC_eq hT ..) <| bind_ok (idx_v8 x (by decide)) <| bind_ok (roundC_eq hT ..) rfl

omit hT in
theorem keyScheduleC_eq (x : V8 W64) : keyScheduleC x.toList = some (keySchedule x).toList := by
  unfold keySchedule
  extract_lets x1 x2 x3 x4 x5 x6 x7 x8 x9 x10 x11 x12 x13 x14 x15
  exact bind_ok (idx_v8 x (by decide)) <| bind_ok (idx_v8 x (by decide)) <| bind_ok (v := x1.toList) rfl <|
    bind_ok (idx_v8 x1 (by decide)) <| bind_ok (idx_v8 x1 (by decide)) <| bind_ok (v := x2.toList) rfl <|
    bind_ok (idx_v8 x2 (by decide)) <| bind_ok (idx_v8 x2 (by decide)) <| bind_ok (v := x3.toList) rfl <|
    bind_ok (idx_v8 x3 (by decide)) <| bind_ok (idx_v8 x3 (by decide)) <| bind_ok (idx_v8 x3 (by decide)) <| bind_ok (shl_lt (by decide)) <| bind_ok (v := x4.toList) rfl <|
    bind_ok (idx_v8 x4 (by decide)) <| bind_ok (idx_v8 x4 (by decide)) <| bind_ok (v := x5.toList) rfl <|
    bind_ok (idx_v8 x5 (by decide)) <| bind_ok (idx_v8 x5 (by decide)) <| bind_ok (v := x6.toList) rfl <|
    bind_ok (idx_v8 x6 (by decide)) <| bind_ok (idx_v8 x6 (by decide)) <| bind_ok (idx_v8 x6 (by decide)) <| bind_ok (shr_lt (by decide)) <| bind_ok (v := x7.toList) rfl <|
    bind_ok (idx_v8 x7 (by decide)) <| bind_ok (idx_v8 x7 (by decide)) <| bind_ok (v := x8.toList) rfl <|
    bind_ok (idx_v8 x8 (by decide)) <| bind_ok (idx_v8 x8 (by decide)) <| bind_ok (v := x9.toList) rfl <|
    bind_ok (idx_v8 x9 (by decide)) <| bind_ok (idx_v8 x9 (by decide)) <| bind_ok (idx_v8 x9 (by decide)) <| bind_ok (shl_lt (by decide)) <| bind_ok (v := x10.toList) rfl <|
    bind_ok (idx_v8 x10 (by decide)) <| bind_ok (idx_v8 x10 (by decide)) <| bind_ok (v := x11.toList) rfl <|
    bind_ok (idx_v8 x11 (by decide)) <| bind_ok (idx_v8 x11 (by decide)) <| bind_ok (v := x12.toList) rfl <|
    bind_ok (idx_v8 x12 (by decide)) <| bind_ok (idx_v8 x12 (by decide)) <| bind_ok (idx_v8 x12 (by decide)) <| bind_ok (shr_lt (by decide)) <| bind_ok (v := x13.toList) rfl <|
    bind_ok (idx_v8 x13 (by decide)) <| bind_ok (idx_v8 x13 (by decide)) <| bind_ok (v := x14.toList) rfl <|
    bind_ok (idx_v8 x14 (by decide)) <| bind_ok (idx_v8 x14 (by decide)) <| bind_ok (v := x15.toList) rfl <|
    bind_ok (idx_v8 x15 (by decide)) <| bind_ok (idx_v8 x15 (by decide)) rfl

theorem compressC_eq (state : V3) {rawBlock : Bytes} (hb : rawBlock.length = 64) :
    compressC T state.toList rawBlock = some (compress T state rawBlock).toList :=
  bind_ok (load_v8_le (by simp) hb) <| bind_ok rfl <| bind_ok rfl <| bind_ok rfl <| bind_ok (passC_eq hT ..) <|
  bind_ok (keyScheduleC_eq _) <| bind_ok (passC_eq hT ..) <| bind_ok (keyScheduleC_eq _) <| bind_ok (passC_eq hT ..) rfl

end Hashes.Tiger
