import Verif.Checked.Sha1Ptr
import Verif.Proof.Raw
/- SHA-1 through raw pointers: no access leaves its object. -/
namespace Hashes.Sha1
open Rs Raw

theorem length_stateObj (a : Nat) (s : V5 W32) : (stateObj a s).data.length = 20 := length_bytesOfWordsLE _

/-- The state after 16 bytes and then the fifth word are stored. -/
theorem stored (v : V128) (rest : Bytes) (e : W32) :
    ∃ ws, Rs.upd ((List.range 5).map (wordLE 32 (Simd.store v ++ rest))) 4 e = some ws ∧
      (⟨ws.getD 0 0, ws.getD 1 0, ws.getD 2 0, ws.getD 3 0, ws.getD 4 0⟩ : V5 W32) =
        ⟨wordLE 32 (Simd.store v) 0, wordLE 32 (Simd.store v) 1, wordLE 32 (Simd.store v) 2, wordLE 32 (Simd.store v) 3, e⟩ := by
  refine ⟨_, rfl, ?_⟩
  rfl

theorem X86.digestBlockC_eq (r : X86.Regs) (o : Obj) (h : o.data.length = 64) : X86.digestBlockC r o = some (X86.digestBlock r o.data) :=
  bind_ok (loadAt_le (by omega)) <| bind_ok (loadAt_le (by omega)) <| bind_ok (loadAt_le (by omega)) <| bind_ok (loadAt_le (by omega)) rfl

theorem X86.compressC_eq (a : Nat) (s : V5 W32) (blks : List Obj) (hb : ∀ o ∈ blks, o.data.length = 64) :
    X86.compressC a s blks = some (X86.compress s (blks.map Obj.data)) := by
  refine bind_ok (loadu_zero (by rw [length_stateObj]; decide)) <| bind_ok (v := s.x4) rfl <|
    bind_ok (foldlM_blocks X86.digestBlockC_eq blks hb _) <| bind_ok (storeu_zero (by rw [length_stateObj]; decide)) ?_
  obtain ⟨ws, h1, h2⟩ := stored _ _ _
  refine bind_ok h1 ?_
  show some _ = _
  rw [h2]
  rfl

theorem Arm.digestBlockC_eq (r : Arm.Regs) (o : Obj) (h : o.data.length = 64) : Arm.digestBlockC r o = some (Arm.digestBlock r o.data) :=
  bind_ok (loadAt_le (by omega)) <| bind_ok (loadAt_le (by omega)) <| bind_ok (loadAt_le (by omega)) <| bind_ok (loadAt_le (by omega)) rfl

theorem Arm.compressC_eq (a : Nat) (s : V5 W32) (blks : List Obj) (hb : ∀ o ∈ blks, o.data.length = 64) :
    Arm.compressC a s blks = some (Arm.compress s (blks.map Obj.data)) := by
  refine bind_ok (loadu_zero (by rw [length_stateObj]; decide)) <| bind_ok (v := s.x4) rfl <|
    bind_ok (foldlM_blocks Arm.digestBlockC_eq blks hb _) <| bind_ok (storeu_zero (by rw [length_stateObj]; decide)) ?_
  obtain ⟨ws, h1, h2⟩ := stored _ _ _
  refine bind_ok h1 ?_
  show some _ = _
  rw [h2]
  rfl

end Hashes.Sha1
