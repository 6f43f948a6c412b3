import Verif.Spec.Fips202
import Verif.Model.Keccak
/- The lane permutation of the keccak crate is Keccak-p[1600, nr]. -/
namespace Hashes.Sha3.P1600
open Hashes.Spec

theorem lane_at (s : List W64) {i : Nat} (h : i < 25) : Keccak.lane s (i % 5) (i / 5) = s.getD i 0 := by
  unfold Keccak.lane
  congr 1
  omega

theorem parity_getD (s : List W64) {x : Nat} (h : x < 5) : (parity s).getD x 0 =
    Keccak.lane s x 0 ^^^ Keccak.lane s x 1 ^^^ Keccak.lane s x 2 ^^^ Keccak.lane s x 3 ^^^ Keccak.lane s x 4 := by
  have e : ∀ x, x < 5 → (parity s).getD x 0 = (List.range 5).foldl (fun a y => a ^^^ s.getD (5 * y + x) 0) 0 := by
    intro x h
    simp [parity, h]
  have e2 : x % 5 = x := by omega
  rw [e x h]
  simp [List.range_succ, Keccak.lane, e2]

theorem theta_eq (s : List W64) : theta s = Keccak.theta s := by
  unfold theta Keccak.theta Keccak.array
  apply List.map_congr_left
  intro i hi
  have hi : i < 25 := by simpa using hi
  simp only [lane_at s hi]
  congr 1
  have h5 : i % 5 < 5 := Nat.mod_lt _ (by decide)
  generalize i % 5 = x at h5
  have e : ((List.range 5).map fun x => (parity s).getD ((x + 4) % 5) 0 ^^^
      ((parity s).getD ((x + 1) % 5) 0).rotateLeft 1).getD x 0 =
      (parity s).getD ((x + 4) % 5) 0 ^^^ ((parity s).getD ((x + 1) % 5) 0).rotateLeft 1 := by
    simp [h5]
  rw [e, parity_getD s (Nat.mod_lt _ (by decide)), parity_getD s (Nat.mod_lt _ (by decide))]
  simp [Keccak.lane]

theorem exists_lanes {s : List W64} (h : s.length = 25) : ∃ a0 a1 a2 a3 a4 a5 a6 a7 a8 a9 a10 a11 a12 a13 a14 a15 a16
    a17 a18 a19 a20 a21 a22 a23 a24, s = [a0, a1, a2, a3, a4, a5, a6, a7, a8, a9, a10, a11, a12, a13, a14, a15, a16,
    a17, a18, a19, a20, a21, a22, a23, a24] := by
  match s, h with
  | [a0, a1, a2, a3, a4, a5, a6, a7, a8, a9, a10, a11, a12, a13, a14, a15, a16,
    a17, a18, a19, a20, a21, a22, a23, a24], _ =>
    exact ⟨a0, a1, a2, a3, a4, a5, a6, a7, a8, a9, a10, a11, a12, a13, a14, a15, a16,
      a17, a18, a19, a20, a21, a22, a23, a24, rfl⟩

theorem rot_zero (x : W64) : x.rotateLeft 0 = x := by
  apply BitVec.eq_of_getElem_eq
  intro i hi
  rw [BitVec.getElem_rotateLeft]
  simp

/-- Rotation offsets in list order. -/
def OFF : List Nat := [0, 1, 62, 28, 27, 36, 44, 6, 55, 20, 3, 10, 43, 25, 39, 41, 45, 15, 21, 8, 18, 2, 61, 56, 14]
/-- Source lanes of π in list order. -/
def SRC : List Nat := [0, 6, 12, 18, 24, 3, 9, 10, 16, 22, 1, 7, 13, 19, 20, 4, 5, 11, 17, 23, 2, 8, 14, 15, 21]

theorem piRho_eq (s : List W64) : Keccak.pi (Keccak.rho s) =
    SRC.map fun i => (s.getD i 0).rotateLeft (OFF.getD i 0) := by
  have h1 : ∀ i, i < 25 → (Keccak.rho s).getD i 0 = (s.getD i 0).rotateLeft (OFF.getD i 0) := by
    intro i hi
    have e : ∀ i < 25, Keccak.rhoOffset (i % 5) (i / 5) = OFF.getD i 0 := by decide +kernel
    have : (Keccak.rho s).getD i 0 = (Keccak.lane s (i % 5) (i / 5)).rotateLeft (Keccak.rhoOffset (i % 5) (i / 5)) := by
      simp [Keccak.rho, Keccak.array, hi]
    rw [this, lane_at s hi, e i hi]
  have h2 : SRC = (List.range 25).map fun i => 5 * (i % 5) + (i % 5 + 3 * (i / 5)) % 5 := by decide +kernel
  rw [h2, List.map_map]
  unfold Keccak.pi Keccak.array
  apply List.map_congr_left
  intro i hi
  simp only [Function.comp]
  rw [← h1 _ (by omega)]
  simp [Keccak.lane]

theorem steps_eq : (List.range 24).map (fun x => (PI.getD x 0, RHO.getD x 0)) =
    [(10, 1), (7, 3), (11, 6), (17, 10), (18, 15), (3, 21), (5, 28), (16, 36), (8, 45), (21, 55), (24, 2), (4, 14),
     (15, 27), (23, 41), (19, 56), (13, 8), (12, 25), (2, 43), (20, 62), (14, 18), (22, 39), (9, 61), (6, 20),
     (1, 44)] := by decide +kernel

theorem rhoPi_eq {s : List W64} (h : s.length = 25) : rhoPi s = Keccak.pi (Keccak.rho s) := by
  have e : rhoPi s = (((List.range 24).map (fun x => (PI.getD x 0, RHO.getD x 0))).foldl
      (fun (a : List W64 × W64) p => (a.1.set p.1 (a.2.rotateLeft p.2), a.1.getD p.1 0)) (s, s.getD 1 0)).1 := by
    rw [List.foldl_map]; rfl
  rw [e, steps_eq, piRho_eq]
  obtain ⟨a0, a1, a2, a3, a4, a5, a6, a7, a8, a9, a10, a11, a12, a13, a14, a15, a16,
    a17, a18, a19, a20, a21, a22, a23, a24, rfl⟩ := exists_lanes h
  simp only [SRC, OFF, List.map_cons, List.map_nil, List.foldl_cons, List.foldl_nil, List.set_cons_succ,
    List.set_cons_zero, List.getD_cons_succ, List.getD_cons_zero, rot_zero]

theorem chi_eq (s : List W64) : chi s = Keccak.chi s := by
  unfold chi Keccak.chi Keccak.array
  apply List.map_congr_left
  intro i hi
  have hi : i < 25 := by simpa using hi
  have e : i / 5 % 5 = i / 5 := by omega
  simp only [lane_at s hi]
  simp [Keccak.lane, e]

theorem iota_eq {s : List W64} (h : s.length = 25) (ir : Nat) : iota (Keccak.RC ir) s = Keccak.iota ir s := by
  obtain ⟨a0, a1, a2, a3, a4, a5, a6, a7, a8, a9, a10, a11, a12, a13, a14, a15, a16,
    a17, a18, a19, a20, a21, a22, a23, a24, rfl⟩ := exists_lanes h
  rfl

/-- The round constant table is the LFSR's output. -/
theorem RC_eq : RC = (List.range 24).map Keccak.RC := by decide +kernel

@[simp] theorem length_theta (s : List W64) : (theta s).length = 25 := by simp [theta]
@[simp] theorem length_chi (s : List W64) : (chi s).length = 25 := by simp [chi]
@[simp] theorem length_iota (rc : W64) (s : List W64) : (iota rc s).length = s.length := by simp [iota]

theorem foldl_round (l : List Nat) {s : List W64} (h : s.length = 25) :
    (l.map Keccak.RC).foldl (fun s rc => iota rc (chi (rhoPi (theta s)))) s =
      l.foldl (fun A i => Keccak.round i A) s ∧
    ((l.map Keccak.RC).foldl (fun s rc => iota rc (chi (rhoPi (theta s)))) s).length = 25 := by
  induction l generalizing s with
  | nil => exact ⟨rfl, h⟩
  | cons i l ih =>
    simp only [List.map_cons, List.foldl_cons]
    have e : iota (Keccak.RC i) (chi (rhoPi (theta s))) = Keccak.round i s := by
      rw [iota_eq (length_chi _), chi_eq, rhoPi_eq (length_theta s), theta_eq]; rfl
    rw [e]
    apply ih
    rw [← e]; simp

/-- `keccak::p1600` is Keccak-p[1600, nr]. -/
theorem p1600_eq {nr : Nat} (hnr : nr ≤ 24) {s : List W64} (h : s.length = 25) :
    p1600 nr s = Keccak.keccakP nr s := by
  have e : RC.drop (24 - nr) = ((List.range nr).map (24 - nr + ·)).map Keccak.RC := by
    rw [RC_eq, ← List.map_drop]
    congr 1
    apply List.ext_getElem
    · simp; omega
    · intro i h1 h2; simp
  rw [p1600, e, (foldl_round _ h).1, List.foldl_map]
  rfl

theorem length_p1600 (nr : Nat) {s : List W64} (h : s.length = 25) : (p1600 nr s).length = 25 := by
  have e : RC.drop (24 - nr) = ((List.range 24).drop (24 - nr)).map Keccak.RC := by rw [RC_eq, ← List.map_drop]
  rw [p1600, e]
  exact (foldl_round _ h).2

end Hashes.Sha3.P1600
