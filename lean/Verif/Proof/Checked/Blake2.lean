import Verif.Proof.Rust
import Verif.Proof.Words
import Verif.Checked.Blake2
/- The checked transcription of BLAKE2 equals the model: C60. -/
namespace Hashes.Blake2
open Rs
variable {w : Nat}

theorem pickC_eq (m : Nat → BitVec w) {s : List Nat} (hs : s.length = 16) (hi : ∀ i < 16, s.getD i 0 < 16) {i0 i1 i2 i3 : Nat}
    (h0 : i0 < 16) (h1 : i1 < 16) (h2 : i2 < 16) (h3 : i3 < 16) :
    pickC ((List.range 16).map m) s i0 i1 i2 i3 =
      some (gather m (s.getD i0 0) (s.getD i1 0) (s.getD i2 0) (s.getD i3 0)) := by
  have e : ∀ i < 16, idx ((List.range 16).map m) (s.getD i 0) = some (m (s.getD i 0)) := fun i h => by
    rw [idx_lt 0 (by simp only [List.length_map, List.length_range]; exact hi i h), getD_map_range _ _ (hi i h)]
  exact bind_ok (idx_lt 0 (hs ▸ h0)) <| bind_ok (idx_lt 0 (hs ▸ h1)) <| bind_ok (idx_lt 0 (hs ▸ h2)) <| bind_ok (idx_lt 0 (hs ▸ h3)) <|
    bind_ok (e _ h0) <| bind_ok (e _ h1) <| bind_ok (e _ h2) <| bind_ok (e _ h3) rfl

theorem roundC_eq (c : Cfg w) (m : Nat → BitVec w) {s : List Nat} (hs : s.length = 16) (hi : ∀ i < 16, s.getD i 0 < 16)
    (v : V4 (Vec w)) : roundC c ((List.range 16).map m) s v = some (round c m s v) :=
  bind_ok (pickC_eq m hs hi (by decide) (by decide) (by decide) (by decide)) <|
  bind_ok (pickC_eq m hs hi (by decide) (by decide) (by decide) (by decide)) <|
  bind_ok (pickC_eq m hs hi (by decide) (by decide) (by decide) (by decide)) <|
  bind_ok (pickC_eq m hs hi (by decide) (by decide) (by decide) (by decide)) rfl

theorem sigma_ok : ∀ i < 12, (sigma i).length = 16 ∧ ∀ j < 16, (sigma i).getD j 0 < 16 := by decide +kernel

theorem sigmaRoundC_eq (c : Cfg w) (m : Nat → BitVec w) {i : Nat} (h : i < 12) (v : V4 (Vec w)) :
    sigmaRoundC c ((List.range 16).map m) i v = some (round c m (sigma i) v) :=
  bind_ok (idx_lt [] h) (roundC_eq c m (sigma_ok i h).1 (sigma_ok i h).2 v)

theorem t1C_eq {c : Cfg w} (hc : c.bytes = 64 ∨ c.bytes = 32) (t : W64) :
    t1C c t = some (if c.bytes = 64 then (0 : BitVec w) else (t >>> 32).setWidth w) := by
  unfold t1C
  rcases hc with h | h <;> simp only [h, if_true] <;> rfl

theorem extraC_eq (c : Cfg w) (m : Nat → BitVec w) (v : V4 (Vec w)) :
    extraC c ((List.range 16).map m) v = some (if c.bytes = 64 then round c m (sigma 1) (round c m (sigma 0) v) else v) := by
  unfold extraC
  split
  · exact bind_ok (sigmaRoundC_eq c m (by decide) v) (sigmaRoundC_eq c m (by decide) _)
  · rfl

theorem compressC_eq {c : Cfg w} (hw : 0 < w / 8) (hc : c.bytes = 64 ∨ c.bytes = 32) (h : V2 (Vec w)) (t : W64) {block : Bytes}
    (hb : block.length = w / 8 * 16) (f0 f1 : BitVec w) : compressC c h t block f0 f1 = some (compress c h t block f0 f1) := by
  unfold compress
  extract_lets m t0 t1 v0 v1 v2 v3 v4 v5 v6 v7 v8 v9 v10 v11
  refine bind_ok (load_le hw (List.length_replicate ..) hb) <| bind_ok (t1C_eq hc t) ?_
  refine bind_ok (v := v1) (sigmaRoundC_eq c m (by decide) v0) ?_
  refine bind_ok (v := v2) (sigmaRoundC_eq c m (by decide) v1) ?_
  refine bind_ok (v := v3) (sigmaRoundC_eq c m (by decide) v2) ?_
  refine bind_ok (v := v4) (sigmaRoundC_eq c m (by decide) v3) ?_
  refine bind_ok (v := v5) (sigmaRoundC_eq c m (by decide) v4) ?_
  refine bind_ok (v := v6) (sigmaRoundC_eq c m (by decide) v5) ?_
  refine bind_ok (v := v7) (sigmaRoundC_eq c m (by decide) v6) ?_
  refine bind_ok (v := v8) (sigmaRoundC_eq c m (by decide) v7) ?_
  refine bind_ok (v := v9) (sigmaRoundC_eq c m (by decide) v8) ?_
  refine bind_ok (v := v10) (sigmaRoundC_eq c m (by decide) v9) ?_
  refine bind_ok (extraC_eq c m v10) rfl

theorem twoWordsC_eq {length full : Nat} (hl : length = 2 * (w / 8)) {x : Bytes} (hx : x.length ≤ length)
    (hf : x.length = length → full = w / 8) : twoWordsC w length full x = some (twoWords w length x) := by
  unfold twoWordsC twoWords
  split
  · rename_i h
    have rep : ∀ j, (List.replicate length (0 : Byte)).getD j 0 = 0 := fun j => by
      rw [List.getD_eq_getElem?_getD, List.getElem?_replicate]; split <;> rfl
    have e : (loop x.length (List.replicate length (0 : Byte)) fun p i => do
        let y ← idx x i
        upd p i y) = some (overwrite (List.replicate length 0) 0 x) := by
      obtain ⟨u, e, hu, hlo, hhi⟩ := loop_ind (n := x.length) (s := List.replicate length (0 : Byte))
        (f := fun p i => do
          let y ← idx x i
          upd p i y)
        (fun k l => l.length = length ∧ (∀ j < k, l.getD j 0 = x.getD j 0) ∧ ∀ j, k ≤ j → l.getD j 0 = 0)
        ⟨List.length_replicate .., by simp, fun j _ => rep j⟩ fun i t hi ⟨h1, h2, h3⟩ => by
          refine ⟨_, bind_ok (idx_lt 0 hi) (upd_lt (by omega)), by simpa using h1, fun j hj => ?_, fun j hj => ?_⟩
          · rw [getD_set]; split
            · rename_i hh; rw [hh.1]
            · exact h2 j (by omega)
          · rw [getD_set, if_neg (by omega)]
            exact h3 j (by omega)
      rw [e]
      congr 1
      refine ext_getD 0 (by simp [overwrite, hu]; omega) fun i hi => ?_
      rw [overwrite]
      by_cases hi' : i < x.length
      · rw [hlo i hi']; simp [List.getElem?_append, hi']
      · rw [hhi i (by omega)]; simp [List.getElem?_append, hi', List.getElem?_replicate]; split <;> rfl
    refine bind_ok e ?_
    have lo : (overwrite (List.replicate length 0) 0 x).length = length := by simp [overwrite]; omega
    exact bind_ok (slice_le (by omega) (by omega)) <| bind_ok (if_pos (by rw [List.length_take, List.length_drop, lo]; omega)) <|
      bind_ok (slice_le (by omega) (by omega)) <| bind_ok (if_pos (by rw [List.length_take, List.length_drop, lo]; omega)) <| by
        simp only [List.drop_zero, Nat.sub_zero, List.take_of_length_le (show ((overwrite (List.replicate length 0) 0 x).drop (length / 2)).length ≤ _ from by rw [List.length_drop]; exact Nat.le_refl _)]
        rfl
  · have h : x.length = length := by omega
    have hf := hf h
    have hh : x.length / 2 = full := by omega
    exact bind_ok (slice_le (by omega) (by omega)) <| bind_ok (if_pos (by simp; omega)) <|
      bind_ok (slice_le (by omega) (by omega)) <| bind_ok (if_pos (by simp; omega)) <| by
        simp only [List.drop_zero, Nat.sub_zero, hh, List.take_of_length_le (show (x.drop full).length ≤ _ from by rw [List.length_drop]; exact Nat.le_refl _)]
        rfl

theorem newWithParamsC_eq {c : Cfg w} (hl : c.bytes / 4 = 2 * (w / 8)) (hw : 8 < w) (salt persona : Bytes) (k n : Nat) :
    newWithParamsC c salt persona k n = newWithParams c salt persona k n := by
  unfold newWithParams newWithParamsC
  extract_lets length p0 p45 p67 h
  by_cases h1 : k ≤ c.bytes
  · by_cases h2 : n ≤ c.bytes
    · by_cases h3 : salt.length ≤ length
      · by_cases h4 : persona.length ≤ length
        · rw [if_neg (by simpa using h1), if_neg (by simpa using h2), if_neg (by simpa using h3), if_neg (by simpa using h4)]
          exact bind_ok (check_of h1) <| bind_ok (check_of h2) <| bind_ok (check_of h3) <| bind_ok (check_of h4) <|
            bind_ok (shl_lt hw) <| bind_ok (twoWordsC_eq hl h3 (by omega)) <| bind_ok (twoWordsC_eq hl h4 (by omega)) rfl
        · rw [if_neg (by simpa using h1), if_neg (by simpa using h2), if_neg (by simpa using h3), if_pos h4, check_of h1, check_of h2, check_of h3,
            check, if_neg h4]
          rfl
      · rw [if_neg (by simpa using h1), if_neg (by simpa using h2), if_pos h3, check_of h1, check_of h2, check, if_neg h3]
        rfl
    · rw [if_neg (by simpa using h1), if_pos h2, check_of h1, check, if_neg h2]
      rfl
  · rw [if_pos h1, check, if_neg h1]
    rfl

theorem paddedC_eq {n : Nat} {k : Bytes} (h : k.length ≤ n) : paddedC n k = some (padded n k) := by
  rw [paddedC, copy_le (Nat.zero_le _) (by simpa using h) rfl, padded, overwrite, Nat.zero_add]

/-- The outcome of a constructor as a checked value. -/
def Outcome.toC {α : Type} : Outcome α → Option (Option α)
  | .ok a => some (some a)
  | .err => some none
  | .panic => none

theorem newWithParams_key {c : Cfg w} {salt persona : Bytes} {k n : Nat} (h : ¬ k ≤ c.bytes) : newWithParams c salt persona k n = none := by
  rw [newWithParams, if_pos h]

theorem newWithSaltAndPersonalC_eq {c : Cfg w} (hl : c.bytes / 4 = 2 * (w / 8)) (hw : 8 < w) (outSize : Nat)
    (key : Option Bytes) (salt persona : Bytes) :
    newWithSaltAndPersonalC c outSize key salt persona = (newWithSaltAndPersonal c outSize key salt persona).toC := by
  unfold newWithSaltAndPersonalC newWithSaltAndPersonal
  extract_lets kl bs qbs buffer
  by_cases hc : key.isSome ∧ kl = 0 ∨ kl > bs ∨ salt.length > qbs ∨ persona.length > qbs
  · rw [if_pos hc, if_pos hc]; rfl
  rw [if_neg hc, if_neg hc]
  have hb : keyBufferC bs key = some buffer := by
    cases key with
    | none => rfl
    | some k => exact bind_ok (paddedC_eq (by have : ¬ k.length > bs := fun h => hc (Or.inr (Or.inl h)); omega)) rfl
  refine bind_ok hb ?_
  rw [newWithParamsC_eq hl hw]
  by_cases hk : kl ≤ c.bytes
  · have e : keyBlockC c.bytes key = some (key.map (padded c.bytes)) := by
      cases key with
      | none => rfl
      | some k => exact bind_ok (paddedC_eq hk) rfl
    cases newWithParams c salt persona kl outSize with
    | none => rfl
    | some core => exact bind_ok rfl (bind_ok e rfl)
  · rw [newWithParams_key hk]; rfl

theorem newFromSliceC_eq {c : Cfg w} (hl : c.bytes / 4 = 2 * (w / 8)) (hw : 8 < w) (hb : c.bytes ≤ c.blockSize) (outSize : Nat) (key : Bytes) :
    newFromSliceC c outSize key = (newFromSlice c outSize key).toC := by
  unfold newFromSliceC newFromSlice
  split
  · rfl
  · refine bind_ok (paddedC_eq (by omega)) ?_
    rw [newWithParamsC_eq hl hw]
    cases newWithParams c [] [] key.length outSize with
    | none => rfl
    | some core => exact bind_ok rfl (bind_ok (paddedC_eq (by omega)) rfl)

theorem updateBlockC_eq {c : Cfg w} (hw : 0 < w / 8) (hc : c.bytes = 64 ∨ c.bytes = 32) {s : State w} {b : Bytes}
    (hb : b.length = w / 8 * 16) (ht : s.t.toNat + b.length < 2 ^ 64) :
    updateBlockC c s b = some (updateBlocks c s [b]) :=
  bind_ok (if_pos (by simp only [BitVec.toNat_ofNat]; rw [Nat.mod_eq_of_lt (by omega)]; exact ht)) <| bind_ok (compressC_eq hw hc _ _ hb _ _) rfl

theorem finalizeC_eq {c : Cfg w} (hw : 0 < w / 8) (hc : c.bytes = 64 ∨ c.bytes = 32) (hl : c.bytes / 4 = 2 * (w / 8))
    (hbs : c.blockSize = w / 8 * 16) {s : State w} {buffer : BlockBuffer} (hf : buffer.data.length = c.blockSize) (hp : buffer.pos ≤ c.blockSize)
    {out : Bytes} (ho : out.length = c.bytes)
    (ht : s.t.toNat + buffer.pos < 2 ^ 64) : finalizeC c s buffer out = some (finalizeFull c s buffer) := by
  have lb : (buffer.padWithZeros c.blockSize).1.length = w / 8 * 16 := by simp [BlockBuffer.padWithZeros]; omega
  refine bind_ok (if_pos (by simp only [BitVec.toNat_ofNat]; rw [Nat.mod_eq_of_lt (by omega)]; exact ht)) <| bind_ok (compressC_eq hw hc _ _ lb _ _) ?_
  refine (copy_all ?_).trans rfl
  generalize compress c _ _ _ _ _ = h
  rw [ho]
  rw [length_bytesOfWordsLE]
  simp [V4.toList]
  omega

end Hashes.Blake2
