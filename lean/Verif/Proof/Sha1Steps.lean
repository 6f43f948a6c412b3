import Verif.Model.Sha1Checked
import Verif.Proof.Sha1
/- sha1-checked: forward and backward step functions against the FIPS 180-4 rounds. -/
namespace Hashes.Sha1Checked
open Spec

/-- The working variables `(a, b, c, d, e)` of FIPS 180-4 when register `r` plays the role of `a`. -/
def view (r : Nat) (v : V5 W32) : V5 W32 :=
  ⟨v.get r, v.get ((r + 1) % 5), v.get ((r + 2) % 5), v.get ((r + 3) % 5), v.get ((r + 4) % 5)⟩

/-- The registers hold the FIPS 180-4 working variables after `t` rounds from `s0`. -/
def At (W : Nat → W32) (s0 : V5 W32) (t : Nat) (v : V5 W32) : Prop :=
  view (4 * t % 5) v = Spec.Sha1.rounds W t s0

theorem at_zero (W : Nat → W32) (v : V5 W32) : At W v 0 v := rfl

/-- The step function is the one of FIPS 180-4 in round `t`. -/
structure Good (r : Rnd) (t : Nat) : Prop where
  f : ∀ x y z, Spec.Sha1.f t x y z = r.f x y z
  k : Spec.Sha1.K t = r.k

theorem f3_maj (x y z : W32) : f3 x y z = Spec.Maj x y z := by
  unfold f3
  rw [BitVec.add_eq_or_of_and_eq_zero]
  · ext i
    simp only [Spec.Maj, BitVec.getElem_or, BitVec.getElem_and, BitVec.getElem_xor]
    cases x[i] <;> cases y[i] <;> cases z[i] <;> rfl
  · ext i
    simp only [BitVec.getElem_and, BitVec.getElem_xor, BitVec.getElem_zero]
    cases x[i] <;> cases y[i] <;> cases z[i] <;> rfl

theorem good1 {t : Nat} (h : t < 20) : Good rnd1 t :=
  have c := Sha1.f_cases (i := 0) (t := t) (by decide) (by omega)
  ⟨c.1, c.2⟩
theorem good2 {t : Nat} (h : 20 ≤ t) (h' : t < 40) : Good rnd2 t :=
  have c := Sha1.f_cases (i := 1) (t := t) (by decide) (by omega)
  ⟨c.1, c.2⟩
theorem good3 {t : Nat} (h : 40 ≤ t) (h' : t < 60) : Good rnd3 t :=
  have c := Sha1.f_cases (i := 2) (t := t) (by decide) (by omega)
  ⟨fun x y z => by rw [c.1]; exact (f3_maj x y z).symm, c.2⟩
theorem good4 {t : Nat} (h : 60 ≤ t) (h' : t < 80) : Good rnd4 t :=
  have c := Sha1.f_cases (i := 3) (t := t) (by decide) (by omega)
  ⟨c.1, c.2⟩

/-- The step with cyclically consecutive registers starting at `r`. -/
def cyc (rd : Rnd) (r : Nat) (w : W32) (v : V5 W32) : V5 W32 :=
  subStep rd r ((r + 1) % 5) ((r + 2) % 5) ((r + 3) % 5) ((r + 4) % 5) w v

theorem cases5 {r : Nat} (h : r < 5) : r = 0 ∨ r = 1 ∨ r = 2 ∨ r = 3 ∨ r = 4 := by omega

theorem view_cyc (rd : Rnd) {r : Nat} (hr : r < 5) (w : W32) (v : V5 W32) :
    view ((r + 4) % 5) (cyc rd r w v) = Sha1.R rd.f rd.k w (view r v) := by
  have h : ∀ x a f k : W32, x + (w + a + f + k) = a + f + x + k + w := fun x a f k => by ac_rfl
  rcases cases5 hr with rfl | rfl | rfl | rfl | rfl <;>
    simp [view, cyc, subStep, V5.get, V5.set, Sha1.R, h]

theorem cyc_at {W : Nat → W32} {s0 v : V5 W32} {t : Nat} {rd : Rnd} (g : Good rd t) {r : Nat}
    (hr : r = 4 * t % 5) (h : At W s0 t v) : At W s0 (t + 1) (cyc rd r (W t) v) := by
  subst hr
  unfold At at h ⊢
  rw [show 4 * (t + 1) % 5 = (4 * t % 5 + 4) % 5 by omega, view_cyc rd (by omega), h]
  exact (Sha1.round_eq t (W t) _ g.f g.k).symm

theorem roundStep_eq (rd : Rnd) (ra rb rc rdd re : Nat) (w : W32) (v : V5 W32) :
    roundStep rd ra rb rc rdd re w v = subStep rd ra rb rc rdd re w v := by
  unfold roundStep subStep
  have h : ∀ a f k : W32, a + f + k + w = w + a + f + k := fun a f k => by ac_rfl
  simp only [h]

theorem roundStep4_cyc (rd : Rnd) {r : Nat} (hr : r < 5) (w : Nat → W32) (t : Nat) (v : V5 W32) :
    roundStep4 rd r ((r + 1) % 5) ((r + 2) % 5) ((r + 3) % 5) ((r + 4) % 5) w t v =
      cyc rd ((r + 2) % 5) (w (t + 3)) (cyc rd ((r + 3) % 5) (w (t + 2)) (cyc rd ((r + 4) % 5) (w (t + 1))
        (cyc rd r (w t) v))) := by
  rcases cases5 hr with rfl | rfl | rfl | rfl | rfl <;> rfl

theorem fw4 {W : Nat → W32} {s0 v : V5 W32} {t : Nat} {rd : Rnd} (g : ∀ j < 4, Good rd (t + j)) (r : Nat)
    (hr : r = 4 * t % 5) (h : At W s0 t v) :
    At W s0 (t + 4) (roundStep4 rd r ((r + 1) % 5) ((r + 2) % 5) ((r + 3) % 5) ((r + 4) % 5) W t v) := by
  rw [roundStep4_cyc rd (by omega)]
  exact cyc_at (g 3 (by decide)) (by omega) (cyc_at (g 2 (by decide)) (by omega)
    (cyc_at (g 1 (by decide)) (by omega) (cyc_at (g 0 (by decide)) hr h)))

theorem fw1 {W : Nat → W32} {s0 v : V5 W32} {t : Nat} {rd : Rnd} (g : Good rd t) (r : Nat)
    (hr : r = 4 * t % 5) (h : At W s0 t v) :
    At W s0 (t + 1) (roundStep rd r ((r + 1) % 5) ((r + 2) % 5) ((r + 3) % 5) ((r + 4) % 5) (W t) v) := by
  rw [roundStep_eq]
  exact cyc_at g hr h

/-! ### backward -/

/-- The backward step with cyclically consecutive registers starting at `r`. -/
def cycBw (rd : Rnd) (r : Nat) (w : W32) (v : V5 W32) : V5 W32 :=
  roundStepBw rd r ((r + 1) % 5) ((r + 2) % 5) ((r + 3) % 5) ((r + 4) % 5) w v

theorem rotl_rotr (x : W32) : (x.rotateRight 30).rotateLeft 30 = x := by
  ext i hi
  simp only [BitVec.getElem_rotateLeft, BitVec.getElem_rotateRight]
  simp (disch := omega)
  split <;> split <;> (try omega) <;> congr 1 <;> omega

theorem cyc_bw (rd : Rnd) {r : Nat} (hr : r < 5) (w : W32) (v : V5 W32) : cyc rd r w (cycBw rd r w v) = v := by
  have h : ∀ x a f k : W32, x - (a + f + k + w) + (w + a + f + k) = x := fun x a f k => by
    rw [show w + a + f + k = a + f + k + w by ac_rfl, BitVec.sub_add_cancel]
  rcases cases5 hr with rfl | rfl | rfl | rfl | rfl <;>
    simp [cyc, cycBw, subStep, roundStepBw, V5.get, V5.set, h, rotl_rotr]

theorem bw1 {W : Nat → W32} {s0 v : V5 W32} {t : Nat} {rd : Rnd} (g : Good rd t) (r : Nat)
    (hr : r = 4 * t % 5) (h : At W s0 t (roundStepBw rd r ((r + 1) % 5) ((r + 2) % 5) ((r + 3) % 5) ((r + 4) % 5) (W t) v)) :
    At W s0 (t + 1) v := by
  have := cyc_at g hr h
  have e := cyc_bw rd (r := r) (by omega) (W t) v
  unfold cycBw at e
  rwa [e] at this

theorem roundStepBw4_cyc (rd : Rnd) {r : Nat} (hr : r < 5) (w : Nat → W32) (t : Nat) (v : V5 W32) :
    roundStepBw4 rd r ((r + 1) % 5) ((r + 2) % 5) ((r + 3) % 5) ((r + 4) % 5) w t v =
      cycBw rd ((r + 3) % 5) (w (t - 3)) (cycBw rd ((r + 2) % 5) (w (t - 2)) (cycBw rd ((r + 1) % 5) (w (t - 1))
        (cycBw rd r (w t) v))) := by
  rcases cases5 hr with rfl | rfl | rfl | rfl | rfl <;> rfl

theorem bw4 {W : Nat → W32} {s0 v : V5 W32} {t : Nat} {rd : Rnd} (g : ∀ j < 4, Good rd (t + j)) (r : Nat)
    (hr : r = 4 * (t + 3) % 5)
    (h : At W s0 t (roundStepBw4 rd r ((r + 1) % 5) ((r + 2) % 5) ((r + 3) % 5) ((r + 4) % 5) W (t + 3) v)) :
    At W s0 (t + 4) v := by
  rw [roundStepBw4_cyc rd (by omega)] at h
  exact bw1 (g 3 (by decide)) _ hr (bw1 (g 2 (by decide)) _ (by omega)
    (bw1 (g 1 (by decide)) _ (by omega) (bw1 (g 0 (by decide)) _ (by omega) h)))

/-! ### whole compressions -/

theorem at_eighty {W : Nat → W32} {s0 v : V5 W32} (h : At W s0 80 v) : v = Spec.Sha1.rounds W 80 s0 := h

theorem addAssign_eq (s v : V5 W32) : addAssign s v = s.zip (· + ·) v := by unfold addAssign; rfl

section
attribute [local irreducible] roundStep4 roundStepBw4 roundStep roundStepBw addAssign

/-- `compression_w` is the FIPS 180-4 compression on an arbitrary expanded message. -/
theorem compressionW_eq (W : Nat → W32) (s : V5 W32) :
    compressionW s W = s.zip (· + ·) (Spec.Sha1.rounds W 80 s) := by
  have h := at_zero W s
  have h := fw4 (rd := rnd1) (fun j hj => good1 (by omega)) 0 rfl h
  have h := fw4 (rd := rnd1) (fun j hj => good1 (by omega)) 1 rfl h
  have h := fw4 (rd := rnd1) (fun j hj => good1 (by omega)) 2 rfl h
  have h := fw4 (rd := rnd1) (fun j hj => good1 (by omega)) 3 rfl h
  have h := fw4 (rd := rnd1) (fun j hj => good1 (by omega)) 4 rfl h
  have h := fw4 (rd := rnd2) (fun j hj => good2 (by omega) (by omega)) 0 rfl h
  have h := fw4 (rd := rnd2) (fun j hj => good2 (by omega) (by omega)) 1 rfl h
  have h := fw4 (rd := rnd2) (fun j hj => good2 (by omega) (by omega)) 2 rfl h
  have h := fw4 (rd := rnd2) (fun j hj => good2 (by omega) (by omega)) 3 rfl h
  have h := fw4 (rd := rnd2) (fun j hj => good2 (by omega) (by omega)) 4 rfl h
  have h := fw4 (rd := rnd3) (fun j hj => good3 (by omega) (by omega)) 0 rfl h
  have h := fw4 (rd := rnd3) (fun j hj => good3 (by omega) (by omega)) 1 rfl h
  have h := fw4 (rd := rnd3) (fun j hj => good3 (by omega) (by omega)) 2 rfl h
  have h := fw4 (rd := rnd3) (fun j hj => good3 (by omega) (by omega)) 3 rfl h
  have h := fw4 (rd := rnd3) (fun j hj => good3 (by omega) (by omega)) 4 rfl h
  have h := fw4 (rd := rnd4) (fun j hj => good4 (by omega) (by omega)) 0 rfl h
  have h := fw4 (rd := rnd4) (fun j hj => good4 (by omega) (by omega)) 1 rfl h
  have h := fw4 (rd := rnd4) (fun j hj => good4 (by omega) (by omega)) 2 rfl h
  have h := fw4 (rd := rnd4) (fun j hj => good4 (by omega) (by omega)) 3 rfl h
  have h := fw4 (rd := rnd4) (fun j hj => good4 (by omega) (by omega)) 4 rfl h
  rw [← addAssign_eq, ← at_eighty h]
  rfl

end

/-- Registers and expanded message agree with FIPS 180-4 up to step `t`. -/
def Inv (B : Bytes) (s0 : V5 W32) (t : Nat) (x : Work) : Prop :=
  At (Sha1.W B) s0 t x.1 ∧ ∀ i < t, x.2.get i = Sha1.W B i

theorem at_congr {W W' : Nat → W32} {s0 v : V5 W32} {t : Nat} (h : ∀ i < t, W i = W' i) :
    At W s0 t v → At W' s0 t v := by
  have : ∀ n ≤ t, Spec.Sha1.rounds W n s0 = Spec.Sha1.rounds W' n s0 := by
    intro n hn
    induction n with
    | zero => rfl
    | succ n ih => rw [Spec.Sha1.rounds, Spec.Sha1.rounds]; rw [ih (by omega), h n (by omega)]
  unfold At
  rw [this t (Nat.le_refl _)]
  exact id

theorem load4_at {B : Bytes} {s0 : V5 W32} {t : Nat} {x : Work} (ht : t + 4 ≤ 16) (r : Nat)
    (hr : r = 4 * t % 5) (h : Inv B s0 t x) :
    Inv B s0 (t + 4) (load4 r ((r + 1) % 5) ((r + 2) % 5) ((r + 3) % 5) ((r + 4) % 5) (wordBE 32 B) t x) := by
  have hw : ∀ i < t + 4, ((((x.2.set t (wordBE 32 B t)).set (t + 1) (wordBE 32 B (t + 1))).set (t + 2)
      (wordBE 32 B (t + 2))).set (t + 3) (wordBE 32 B (t + 3))).get i = Sha1.W B i := by
    intro i hi
    simp (disch := omega) only [Arr.get_set]
    split
    · subst i; rw [Sha1.W_lt B (by omega)]
    split
    · subst i; rw [Sha1.W_lt B (by omega)]
    split
    · subst i; rw [Sha1.W_lt B (by omega)]
    split
    · subst i; rw [Sha1.W_lt B (by omega)]
    exact h.2 i (by omega)
  refine ⟨?_, hw⟩
  exact at_congr hw (fw4 (rd := rnd1) (fun j hj => good1 (by omega)) r hr
    (at_congr (fun i hi => (hw i (by omega)).symm) h.1))

theorem mix_eq {B : Bytes} {w : Arr 32 80} {t : Nat} (h16 : 16 ≤ t) (ht : t < 80)
    (h : ∀ i < t, w.get i = Sha1.W B i) : mix w t = Sha1.W B t := by
  obtain ⟨u, rfl⟩ : ∃ u, t = u + 16 := ⟨t - 16, by omega⟩
  unfold mix
  rw [h _ (by omega), h _ (by omega), h _ (by omega), h _ (by omega), Sha1.W_ge B (by omega)]
  rfl

theorem set_mix {B : Bytes} {w : Arr 32 80} {t : Nat} (h16 : 16 ≤ t) (ht : t < 80)
    (h : ∀ i < t, w.get i = Sha1.W B i) : ∀ i < t + 1, (w.set t (mix w t)).get i = Sha1.W B i := by
  intro i hi
  rw [Arr.get_set _ _ _ _ ht]
  split
  · subst i; exact mix_eq h16 ht h
  · exact h i (by omega)

theorem full_at {B : Bytes} {s0 : V5 W32} {t : Nat} {x : Work} {rd : Rnd} (h16 : 16 ≤ t) (ht : t < 80)
    (g : Good rd t) (r : Nat) (hr : r = 4 * t % 5) (h : Inv B s0 t x) :
    Inv B s0 (t + 1) (fullStep rd r ((r + 1) % 5) ((r + 2) % 5) ((r + 3) % 5) ((r + 4) % 5) t x) := by
  have hw := set_mix h16 ht h.2
  refine ⟨?_, hw⟩
  have := cyc_at g hr h.1
  rw [← hw t (by omega)] at this
  exact this

theorem expand4_at {B : Bytes} {s0 : V5 W32} {t : Nat} {x : Work} {rd : Rnd} (h16 : 16 ≤ t) (ht : t + 4 ≤ 80)
    (g : ∀ j < 4, Good rd (t + j)) (r : Nat) (hr : r = 4 * t % 5) (h : Inv B s0 t x) :
    Inv B s0 (t + 4) (expand4 rd r ((r + 1) % 5) ((r + 2) % 5) ((r + 3) % 5) ((r + 4) % 5) t x) := by
  have hw := set_mix (t := t + 3) (by omega) (by omega) (set_mix (t := t + 2) (by omega) (by omega)
    (set_mix (t := t + 1) (by omega) (by omega) (set_mix h16 (by omega) h.2)))
  refine ⟨?_, hw⟩
  exact at_congr hw (fw4 g r hr (at_congr (fun i hi => (hw i (by omega)).symm) h.1))

section
attribute [local irreducible] roundStep4 roundStepBw4 roundStep roundStepBw addAssign load4 expand4 fullStep

/-- `compression_states` computes the FIPS 180-4 compression and expansion and saves the working registers
after 58 and 65 rounds. -/
theorem compressionStates_spec (s : V5 W32) (B : Bytes) (w : Arr 32 80) :
    (compressionStates s (wordBE 32 B) w).ihv = Spec.Sha1.compress s B ∧
    (∀ i < 80, (compressionStates s (wordBE 32 B) w).w.get i = Sha1.W B i) ∧
    At (Sha1.W B) s 58 (compressionStates s (wordBE 32 B) w).state58 ∧
    At (Sha1.W B) s 65 (compressionStates s (wordBE 32 B) w).state65 := by
  have h : Inv B s 0 (s, w) := ⟨at_zero _ s, fun i hi => absurd hi (by omega)⟩
  have h := load4_at (t := 0) (by decide) 0 rfl h
  have h := load4_at (t := 4) (by decide) 1 rfl h
  have h := load4_at (t := 8) (by decide) 2 rfl h
  have h := load4_at (t := 12) (by decide) 3 rfl h
  have h := expand4_at (rd := rnd1) (t := 16) (by decide) (by decide) (fun j hj => good1 (by omega)) 4 rfl h
  have h := expand4_at (rd := rnd2) (t := 20) (by decide) (by decide) (fun j hj => good2 (by omega) (by omega)) 0 rfl h
  have h := expand4_at (rd := rnd2) (t := 24) (by decide) (by decide) (fun j hj => good2 (by omega) (by omega)) 1 rfl h
  have h := expand4_at (rd := rnd2) (t := 28) (by decide) (by decide) (fun j hj => good2 (by omega) (by omega)) 2 rfl h
  have h := expand4_at (rd := rnd2) (t := 32) (by decide) (by decide) (fun j hj => good2 (by omega) (by omega)) 3 rfl h
  have h := expand4_at (rd := rnd2) (t := 36) (by decide) (by decide) (fun j hj => good2 (by omega) (by omega)) 4 rfl h
  have h := expand4_at (rd := rnd3) (t := 40) (by decide) (by decide) (fun j hj => good3 (by omega) (by omega)) 0 rfl h
  have h := expand4_at (rd := rnd3) (t := 44) (by decide) (by decide) (fun j hj => good3 (by omega) (by omega)) 1 rfl h
  have h := expand4_at (rd := rnd3) (t := 48) (by decide) (by decide) (fun j hj => good3 (by omega) (by omega)) 2 rfl h
  have h := expand4_at (rd := rnd3) (t := 52) (by decide) (by decide) (fun j hj => good3 (by omega) (by omega)) 3 rfl h
  have h := full_at (rd := rnd3) (t := 56) (by decide) (by decide) (good3 (by omega) (by omega)) 4 rfl h
  have h := full_at (rd := rnd3) (t := 57) (by decide) (by decide) (good3 (by omega) (by omega)) 3 rfl h
  have h58 := h.1
  have h := full_at (rd := rnd3) (t := 58) (by decide) (by decide) (good3 (by omega) (by omega)) 2 rfl h
  have h := full_at (rd := rnd3) (t := 59) (by decide) (by decide) (good3 (by omega) (by omega)) 1 rfl h
  have h := expand4_at (rd := rnd4) (t := 60) (by decide) (by decide) (fun j hj => good4 (by omega) (by omega)) 0 rfl h
  have h := full_at (rd := rnd4) (t := 64) (by decide) (by decide) (good4 (by omega) (by omega)) 1 rfl h
  have h65 := h.1
  have h := full_at (rd := rnd4) (t := 65) (by decide) (by decide) (good4 (by omega) (by omega)) 0 rfl h
  have h := full_at (rd := rnd4) (t := 66) (by decide) (by decide) (good4 (by omega) (by omega)) 4 rfl h
  have h := full_at (rd := rnd4) (t := 67) (by decide) (by decide) (good4 (by omega) (by omega)) 3 rfl h
  have h := expand4_at (rd := rnd4) (t := 68) (by decide) (by decide) (fun j hj => good4 (by omega) (by omega)) 2 rfl h
  have h := expand4_at (rd := rnd4) (t := 72) (by decide) (by decide) (fun j hj => good4 (by omega) (by omega)) 3 rfl h
  have h := expand4_at (rd := rnd4) (t := 76) (by decide) (by decide) (fun j hj => good4 (by omega) (by omega)) 4 rfl h
  refine ⟨?_, h.2, h58, h65⟩
  rw [show Spec.Sha1.compress s B = s.zip (· + ·) (Spec.Sha1.rounds (Sha1.W B) 80 s) from rfl, ← addAssign_eq,
    ← at_eighty h.1]
  rfl

/-- `recompress_fast_58` finds the chaining value from which `me2` leads to the given state after 58 rounds,
and computes the compression of that chaining value. -/
theorem recompressFast58_spec (M : Nat → W32) (state : V5 W32) :
    At M (recompressFast58 M state).1 58 state ∧
    (recompressFast58 M state).2 = (recompressFast58 M state).1.zip (· + ·)
      (Spec.Sha1.rounds M 80 (recompressFast58 M state).1) := by
  have h := at_zero M (recompressFast58 M state).1
  have h := bw4 (rd := rnd1) (t := 0) (fun j hj => good1 (by omega)) 2 rfl h
  have h := bw4 (rd := rnd1) (t := 4) (fun j hj => good1 (by omega)) 3 rfl h
  have h := bw4 (rd := rnd1) (t := 8) (fun j hj => good1 (by omega)) 4 rfl h
  have h := bw4 (rd := rnd1) (t := 12) (fun j hj => good1 (by omega)) 0 rfl h
  have h := bw4 (rd := rnd1) (t := 16) (fun j hj => good1 (by omega)) 1 rfl h
  have h := bw4 (rd := rnd2) (t := 20) (fun j hj => good2 (by omega) (by omega)) 2 rfl h
  have h := bw4 (rd := rnd2) (t := 24) (fun j hj => good2 (by omega) (by omega)) 3 rfl h
  have h := bw4 (rd := rnd2) (t := 28) (fun j hj => good2 (by omega) (by omega)) 4 rfl h
  have h := bw4 (rd := rnd2) (t := 32) (fun j hj => good2 (by omega) (by omega)) 0 rfl h
  have h := bw4 (rd := rnd2) (t := 36) (fun j hj => good2 (by omega) (by omega)) 1 rfl h
  have h := bw4 (rd := rnd3) (t := 40) (fun j hj => good3 (by omega) (by omega)) 2 rfl h
  have h := bw4 (rd := rnd3) (t := 44) (fun j hj => good3 (by omega) (by omega)) 3 rfl h
  have h := bw4 (rd := rnd3) (t := 48) (fun j hj => good3 (by omega) (by omega)) 4 rfl h
  have h := bw4 (rd := rnd3) (t := 52) (fun j hj => good3 (by omega) (by omega)) 0 rfl h
  have h := bw1 (rd := rnd3) (t := 56) (good3 (by omega) (by omega)) 4 rfl h
  have h := bw1 (rd := rnd3) (t := 57) (good3 (by omega) (by omega)) 3 rfl h
  refine ⟨h, ?_⟩
  have h := fw1 (rd := rnd3) (t := 58) (good3 (by omega) (by omega)) 2 rfl h
  have h := fw1 (rd := rnd3) (t := 59) (good3 (by omega) (by omega)) 1 rfl h
  have h := fw4 (rd := rnd4) (t := 60) (fun j hj => good4 (by omega) (by omega)) 0 rfl h
  have h := fw4 (rd := rnd4) (t := 64) (fun j hj => good4 (by omega) (by omega)) 1 rfl h
  have h := fw4 (rd := rnd4) (t := 68) (fun j hj => good4 (by omega) (by omega)) 2 rfl h
  have h := fw4 (rd := rnd4) (t := 72) (fun j hj => good4 (by omega) (by omega)) 3 rfl h
  have h := fw4 (rd := rnd4) (t := 76) (fun j hj => good4 (by omega) (by omega)) 4 rfl h
  rw [← addAssign_eq, ← at_eighty h]
  rfl

/-- `recompress_fast_65`, likewise for 65 rounds. -/
theorem recompressFast65_spec (M : Nat → W32) (state : V5 W32) :
    At M (recompressFast65 M state).1 65 state ∧
    (recompressFast65 M state).2 = (recompressFast65 M state).1.zip (· + ·)
      (Spec.Sha1.rounds M 80 (recompressFast65 M state).1) := by
  have h := at_zero M (recompressFast65 M state).1
  have h := bw4 (rd := rnd1) (t := 0) (fun j hj => good1 (by omega)) 2 rfl h
  have h := bw4 (rd := rnd1) (t := 4) (fun j hj => good1 (by omega)) 3 rfl h
  have h := bw4 (rd := rnd1) (t := 8) (fun j hj => good1 (by omega)) 4 rfl h
  have h := bw4 (rd := rnd1) (t := 12) (fun j hj => good1 (by omega)) 0 rfl h
  have h := bw4 (rd := rnd1) (t := 16) (fun j hj => good1 (by omega)) 1 rfl h
  have h := bw4 (rd := rnd2) (t := 20) (fun j hj => good2 (by omega) (by omega)) 2 rfl h
  have h := bw4 (rd := rnd2) (t := 24) (fun j hj => good2 (by omega) (by omega)) 3 rfl h
  have h := bw4 (rd := rnd2) (t := 28) (fun j hj => good2 (by omega) (by omega)) 4 rfl h
  have h := bw4 (rd := rnd2) (t := 32) (fun j hj => good2 (by omega) (by omega)) 0 rfl h
  have h := bw4 (rd := rnd2) (t := 36) (fun j hj => good2 (by omega) (by omega)) 1 rfl h
  have h := bw4 (rd := rnd3) (t := 40) (fun j hj => good3 (by omega) (by omega)) 2 rfl h
  have h := bw4 (rd := rnd3) (t := 44) (fun j hj => good3 (by omega) (by omega)) 3 rfl h
  have h := bw4 (rd := rnd3) (t := 48) (fun j hj => good3 (by omega) (by omega)) 4 rfl h
  have h := bw4 (rd := rnd3) (t := 52) (fun j hj => good3 (by omega) (by omega)) 0 rfl h
  have h := bw4 (rd := rnd3) (t := 56) (fun j hj => good3 (by omega) (by omega)) 1 rfl h
  have h := bw4 (rd := rnd4) (t := 60) (fun j hj => good4 (by omega) (by omega)) 2 rfl h
  have h := bw1 (rd := rnd4) (t := 64) (good4 (by omega) (by omega)) 1 rfl h
  refine ⟨h, ?_⟩
  have h := fw1 (rd := rnd4) (t := 65) (good4 (by omega) (by omega)) 0 rfl h
  have h := fw1 (rd := rnd4) (t := 66) (good4 (by omega) (by omega)) 4 rfl h
  have h := fw1 (rd := rnd4) (t := 67) (good4 (by omega) (by omega)) 3 rfl h
  have h := fw4 (rd := rnd4) (t := 68) (fun j hj => good4 (by omega) (by omega)) 2 rfl h
  have h := fw4 (rd := rnd4) (t := 72) (fun j hj => good4 (by omega) (by omega)) 3 rfl h
  have h := fw4 (rd := rnd4) (t := 76) (fun j hj => good4 (by omega) (by omega)) 4 rfl h
  rw [← addAssign_eq, ← at_eighty h]
  rfl

end

end Hashes.Sha1Checked
