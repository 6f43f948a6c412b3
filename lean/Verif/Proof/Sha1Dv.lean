import Verif.Model.Sha1Checked
import Verif.Spec.Sha1Cd
import Verif.Proof.Sha1
import Verif.Proof.TigerGen -- not used: keeps memory-hungry modules from being checked at the same time
/- sha1-checked: the table of disturbance vectors. -/
namespace Hashes.Sha1Checked
open Spec Spec.Sha1Cd

def Testt.steps : Testt → Nat
  | .T58 => 58
  | .T65 => 65

set_option maxRecDepth 20000 in
/-- `SHA1_DVS` lists the local-collision differences of the 32 vectors, in order. -/
theorem dvs_table : SHA1_DVS.map (fun i => (i.testt.steps, i.dm)) = vectors.map fun v => (v.T, dm v) := by
  decide +kernel

/-- The mask bit of each entry is its position. -/
theorem dvs_bits : SHA1_DVS.map (·.maskb) = List.range 32 := by decide +kernel

theorem length_vectors : vectors.length = 32 := rfl

/-- Words 16… of the SHA-1 message expansion computed from all words of `l`. -/
def expanded (l : List W32) : List W32 :=
  (((l.drop 13).zipWith (· ^^^ ·) (l.drop 8)).zipWith (· ^^^ ·) (l.drop 2)).zipWith
    (fun x y => (x ^^^ y).rotateLeft 1) l

/-- The differences obey the SHA-1 message expansion. -/
theorem dm_expand : SHA1_DVS.all (fun i => decide (i.dm.length = 80) &&
    ((expanded i.dm).take 64 == i.dm.drop 16)) = true := by
  decide +kernel

/-- No vector is disturbed in the five steps before its test step, so the working states agree there. -/
theorem dv_quiet : vectors.all (fun v => ((words v).drop v.T).take 5 == [0, 0, 0, 0, 0]) = true := by
  decide +kernel

/-- Every vector changes the block. -/
theorem dm_nonzero : SHA1_DVS.all (fun i => (i.dm.take 16).any fun x => x != 0) = true := by
  decide +kernel

/-- Each bit condition relates two bits at which the vector prescribes a difference. -/
theorem conds_on_dm : ((SHA1_DVS.zip Ubc.conds).all fun p => p.2.all fun c =>
    (p.1.dm.getD c.1 0).getLsbD c.2.1 && (p.1.dm.getD c.2.2.1 0).getLsbD c.2.2.2.1) = true := by
  decide +kernel

end Hashes.Sha1Checked
