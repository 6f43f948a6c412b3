import Verif.Model.Md5
import Verif.Spec.Md
import Verif.Proof.Md
import Verif.Proof.Words
/- Helper lemmas: the modelled MD5 equals RFC 1321. -/
namespace Hashes
namespace Md5

theorem Ts_eq : Spec.Md5.Ts = RC := by decide +kernel

section
variable (X : Nat → W32) (s : V4 W32)

/-- The register values in order of creation: `V 0 .. V 3` are `a, d, c, b`, step `i` creates `V (i+4)`. -/
def V (i : Nat) : W32 := (Spec.Md5.steps X i s).x0

theorem V_rec (i : Nat) : V X s (i + 4) = V X s (i + 3) +
    (V X s i + Spec.Md5.func i (V X s (i + 3)) (V X s (i + 2)) (V X s (i + 1)) + X (Spec.Md5.index i) +
      Spec.Md5.Ts.getD i 0).rotateLeft (Spec.Md5.shift i) := rfl

theorem steps_V (i : Nat) : Spec.Md5.steps X i s = ⟨V X s i, V X s (i + 3), V X s (i + 2), V X s (i + 1)⟩ := rfl

theorem stepF (i : Nat) (_h0 : 0 ≤ i) (h1 : i < 16) :
    opF (V X s i) (V X s (i + 3)) (V X s (i + 2)) (V X s (i + 1)) (X (Spec.Md5.index i)) (rc i)
      (Spec.Md5.shift i) = V X s (i + 4) := by
  rw [V_rec]
  have hf : Spec.Md5.func i = Spec.Md5.F := by
    unfold Spec.Md5.func
    repeat' split
    all_goals first | rfl | omega
  rw [hf, opF, rc, Spec.Md5.F, Ts_eq, BitVec.add_comm (V X s i)]
  exact BitVec.add_comm _ _

theorem stepG (i : Nat) (_h0 : 16 ≤ i) (h1 : i < 32) :
    opG (V X s i) (V X s (i + 3)) (V X s (i + 2)) (V X s (i + 1)) (X (Spec.Md5.index i)) (rc i)
      (Spec.Md5.shift i) = V X s (i + 4) := by
  rw [V_rec]
  have hf : Spec.Md5.func i = Spec.Md5.G := by
    unfold Spec.Md5.func
    repeat' split
    all_goals first | rfl | omega
  rw [hf, opG, rc, Spec.Md5.G, Ts_eq, BitVec.add_comm (V X s i)]
  exact BitVec.add_comm _ _

theorem stepH (i : Nat) (_h0 : 32 ≤ i) (h1 : i < 48) :
    opH (V X s i) (V X s (i + 3)) (V X s (i + 2)) (V X s (i + 1)) (X (Spec.Md5.index i)) (rc i)
      (Spec.Md5.shift i) = V X s (i + 4) := by
  rw [V_rec]
  have hf : Spec.Md5.func i = Spec.Md5.H := by
    unfold Spec.Md5.func
    repeat' split
    all_goals first | rfl | omega
  rw [hf, opH, rc, Spec.Md5.H, Ts_eq, BitVec.add_comm (V X s i)]
  exact BitVec.add_comm _ _

theorem stepI (i : Nat) (_h0 : 48 ≤ i) (h1 : i < 64) :
    opI (V X s i) (V X s (i + 3)) (V X s (i + 2)) (V X s (i + 1)) (X (Spec.Md5.index i)) (rc i)
      (Spec.Md5.shift i) = V X s (i + 4) := by
  rw [V_rec]
  have hf : Spec.Md5.func i = Spec.Md5.I := by
    unfold Spec.Md5.func
    repeat' split
    all_goals first | rfl | omega
  rw [hf, opI, rc, Spec.Md5.I, Ts_eq, BitVec.add_comm (V X s i)]
  exact BitVec.add_comm _ _

end

attribute [local irreducible] V in
theorem compressBlock_eq (s : V4 W32) (input : Bytes) : compressBlock s input = Spec.Md5.compress s input := by
  unfold compressBlock
  extract_lets v0 v3 v2 v1 X v4 v5 v6 v7 v8 v9 v10 v11 v12 v13 v14 v15 v16 v17 v18 v19 v20 v21 v22 v23 v24 v25 v26 v27 v28 v29 v30 v31 v32 v33 v34 v35 v36 v37 v38 v39 v40 v41 v42 v43 v44 v45 v46 v47 v48 v49 v50 v51 v52 v53 v54 v55 v56 v57 v58 v59 v60 v61 v62 v63 v64 v65 v66 v67
  have h0 : v0 = V X s 0 := by unfold V; rfl
  have h1 : v1 = V X s 1 := by unfold V; rfl
  have h2 : v2 = V X s 2 := by unfold V; rfl
  have h3 : v3 = V X s 3 := by unfold V; rfl
  have h4 : v4 = V X s 4 := by
    rw [show v4 = opF v0 v3 v2 v1 (X 0) (rc 0) 7 from rfl, h0, h3, h2, h1]
    exact stepF X s 0 (by decide) (by decide)
  have h5 : v5 = V X s 5 := by
    rw [show v5 = opF v1 v4 v3 v2 (X 1) (rc 1) 12 from rfl, h1, h4, h3, h2]
    exact stepF X s 1 (by decide) (by decide)
  have h6 : v6 = V X s 6 := by
    rw [show v6 = opF v2 v5 v4 v3 (X 2) (rc 2) 17 from rfl, h2, h5, h4, h3]
    exact stepF X s 2 (by decide) (by decide)
  have h7 : v7 = V X s 7 := by
    rw [show v7 = opF v3 v6 v5 v4 (X 3) (rc 3) 22 from rfl, h3, h6, h5, h4]
    exact stepF X s 3 (by decide) (by decide)
  have h8 : v8 = V X s 8 := by
    rw [show v8 = opF v4 v7 v6 v5 (X 4) (rc 4) 7 from rfl, h4, h7, h6, h5]
    exact stepF X s 4 (by decide) (by decide)
  have h9 : v9 = V X s 9 := by
    rw [show v9 = opF v5 v8 v7 v6 (X 5) (rc 5) 12 from rfl, h5, h8, h7, h6]
    exact stepF X s 5 (by decide) (by decide)
  have h10 : v10 = V X s 10 := by
    rw [show v10 = opF v6 v9 v8 v7 (X 6) (rc 6) 17 from rfl, h6, h9, h8, h7]
    exact stepF X s 6 (by decide) (by decide)
  have h11 : v11 = V X s 11 := by
    rw [show v11 = opF v7 v10 v9 v8 (X 7) (rc 7) 22 from rfl, h7, h10, h9, h8]
    exact stepF X s 7 (by decide) (by decide)
  have h12 : v12 = V X s 12 := by
    rw [show v12 = opF v8 v11 v10 v9 (X 8) (rc 8) 7 from rfl, h8, h11, h10, h9]
    exact stepF X s 8 (by decide) (by decide)
  have h13 : v13 = V X s 13 := by
    rw [show v13 = opF v9 v12 v11 v10 (X 9) (rc 9) 12 from rfl, h9, h12, h11, h10]
    exact stepF X s 9 (by decide) (by decide)
  have h14 : v14 = V X s 14 := by
    rw [show v14 = opF v10 v13 v12 v11 (X 10) (rc 10) 17 from rfl, h10, h13, h12, h11]
    exact stepF X s 10 (by decide) (by decide)
  have h15 : v15 = V X s 15 := by
    rw [show v15 = opF v11 v14 v13 v12 (X 11) (rc 11) 22 from rfl, h11, h14, h13, h12]
    exact stepF X s 11 (by decide) (by decide)
  have h16 : v16 = V X s 16 := by
    rw [show v16 = opF v12 v15 v14 v13 (X 12) (rc 12) 7 from rfl, h12, h15, h14, h13]
    exact stepF X s 12 (by decide) (by decide)
  have h17 : v17 = V X s 17 := by
    rw [show v17 = opF v13 v16 v15 v14 (X 13) (rc 13) 12 from rfl, h13, h16, h15, h14]
    exact stepF X s 13 (by decide) (by decide)
  have h18 : v18 = V X s 18 := by
    rw [show v18 = opF v14 v17 v16 v15 (X 14) (rc 14) 17 from rfl, h14, h17, h16, h15]
    exact stepF X s 14 (by decide) (by decide)
  have h19 : v19 = V X s 19 := by
    rw [show v19 = opF v15 v18 v17 v16 (X 15) (rc 15) 22 from rfl, h15, h18, h17, h16]
    exact stepF X s 15 (by decide) (by decide)
  have h20 : v20 = V X s 20 := by
    rw [show v20 = opG v16 v19 v18 v17 (X 1) (rc 16) 5 from rfl, h16, h19, h18, h17]
    exact stepG X s 16 (by decide) (by decide)
  have h21 : v21 = V X s 21 := by
    rw [show v21 = opG v17 v20 v19 v18 (X 6) (rc 17) 9 from rfl, h17, h20, h19, h18]
    exact stepG X s 17 (by decide) (by decide)
  have h22 : v22 = V X s 22 := by
    rw [show v22 = opG v18 v21 v20 v19 (X 11) (rc 18) 14 from rfl, h18, h21, h20, h19]
    exact stepG X s 18 (by decide) (by decide)
  have h23 : v23 = V X s 23 := by
    rw [show v23 = opG v19 v22 v21 v20 (X 0) (rc 19) 20 from rfl, h19, h22, h21, h20]
    exact stepG X s 19 (by decide) (by decide)
  have h24 : v24 = V X s 24 := by
    rw [show v24 = opG v20 v23 v22 v21 (X 5) (rc 20) 5 from rfl, h20, h23, h22, h21]
    exact stepG X s 20 (by decide) (by decide)
  have h25 : v25 = V X s 25 := by
    rw [show v25 = opG v21 v24 v23 v22 (X 10) (rc 21) 9 from rfl, h21, h24, h23, h22]
    exact stepG X s 21 (by decide) (by decide)
  have h26 : v26 = V X s 26 := by
    rw [show v26 = opG v22 v25 v24 v23 (X 15) (rc 22) 14 from rfl, h22, h25, h24, h23]
    exact stepG X s 22 (by decide) (by decide)
  have h27 : v27 = V X s 27 := by
    rw [show v27 = opG v23 v26 v25 v24 (X 4) (rc 23) 20 from rfl, h23, h26, h25, h24]
    exact stepG X s 23 (by decide) (by decide)
  have h28 : v28 = V X s 28 := by
    rw [show v28 = opG v24 v27 v26 v25 (X 9) (rc 24) 5 from rfl, h24, h27, h26, h25]
    exact stepG X s 24 (by decide) (by decide)
  have h29 : v29 = V X s 29 := by
    rw [show v29 = opG v25 v28 v27 v26 (X 14) (rc 25) 9 from rfl, h25, h28, h27, h26]
    exact stepG X s 25 (by decide) (by decide)
  have h30 : v30 = V X s 30 := by
    rw [show v30 = opG v26 v29 v28 v27 (X 3) (rc 26) 14 from rfl, h26, h29, h28, h27]
    exact stepG X s 26 (by decide) (by decide)
  have h31 : v31 = V X s 31 := by
    rw [show v31 = opG v27 v30 v29 v28 (X 8) (rc 27) 20 from rfl, h27, h30, h29, h28]
    exact stepG X s 27 (by decide) (by decide)
  have h32 : v32 = V X s 32 := by
    rw [show v32 = opG v28 v31 v30 v29 (X 13) (rc 28) 5 from rfl, h28, h31, h30, h29]
    exact stepG X s 28 (by decide) (by decide)
  have h33 : v33 = V X s 33 := by
    rw [show v33 = opG v29 v32 v31 v30 (X 2) (rc 29) 9 from rfl, h29, h32, h31, h30]
    exact stepG X s 29 (by decide) (by decide)
  have h34 : v34 = V X s 34 := by
    rw [show v34 = opG v30 v33 v32 v31 (X 7) (rc 30) 14 from rfl, h30, h33, h32, h31]
    exact stepG X s 30 (by decide) (by decide)
  have h35 : v35 = V X s 35 := by
    rw [show v35 = opG v31 v34 v33 v32 (X 12) (rc 31) 20 from rfl, h31, h34, h33, h32]
    exact stepG X s 31 (by decide) (by decide)
  have h36 : v36 = V X s 36 := by
    rw [show v36 = opH v32 v35 v34 v33 (X 5) (rc 32) 4 from rfl, h32, h35, h34, h33]
    exact stepH X s 32 (by decide) (by decide)
  have h37 : v37 = V X s 37 := by
    rw [show v37 = opH v33 v36 v35 v34 (X 8) (rc 33) 11 from rfl, h33, h36, h35, h34]
    exact stepH X s 33 (by decide) (by decide)
  have h38 : v38 = V X s 38 := by
    rw [show v38 = opH v34 v37 v36 v35 (X 11) (rc 34) 16 from rfl, h34, h37, h36, h35]
    exact stepH X s 34 (by decide) (by decide)
  have h39 : v39 = V X s 39 := by
    rw [show v39 = opH v35 v38 v37 v36 (X 14) (rc 35) 23 from rfl, h35, h38, h37, h36]
    exact stepH X s 35 (by decide) (by decide)
  have h40 : v40 = V X s 40 := by
    rw [show v40 = opH v36 v39 v38 v37 (X 1) (rc 36) 4 from rfl, h36, h39, h38, h37]
    exact stepH X s 36 (by decide) (by decide)
  have h41 : v41 = V X s 41 := by
    rw [show v41 = opH v37 v40 v39 v38 (X 4) (rc 37) 11 from rfl, h37, h40, h39, h38]
    exact stepH X s 37 (by decide) (by decide)
  have h42 : v42 = V X s 42 := by
    rw [show v42 = opH v38 v41 v40 v39 (X 7) (rc 38) 16 from rfl, h38, h41, h40, h39]
    exact stepH X s 38 (by decide) (by decide)
  have h43 : v43 = V X s 43 := by
    rw [show v43 = opH v39 v42 v41 v40 (X 10) (rc 39) 23 from rfl, h39, h42, h41, h40]
    exact stepH X s 39 (by decide) (by decide)
  have h44 : v44 = V X s 44 := by
    rw [show v44 = opH v40 v43 v42 v41 (X 13) (rc 40) 4 from rfl, h40, h43, h42, h41]
    exact stepH X s 40 (by decide) (by decide)
  have h45 : v45 = V X s 45 := by
    rw [show v45 = opH v41 v44 v43 v42 (X 0) (rc 41) 11 from rfl, h41, h44, h43, h42]
    exact stepH X s 41 (by decide) (by decide)
  have h46 : v46 = V X s 46 := by
    rw [show v46 = opH v42 v45 v44 v43 (X 3) (rc 42) 16 from rfl, h42, h45, h44, h43]
    exact stepH X s 42 (by decide) (by decide)
  have h47 : v47 = V X s 47 := by
    rw [show v47 = opH v43 v46 v45 v44 (X 6) (rc 43) 23 from rfl, h43, h46, h45, h44]
    exact stepH X s 43 (by decide) (by decide)
  have h48 : v48 = V X s 48 := by
    rw [show v48 = opH v44 v47 v46 v45 (X 9) (rc 44) 4 from rfl, h44, h47, h46, h45]
    exact stepH X s 44 (by decide) (by decide)
  have h49 : v49 = V X s 49 := by
    rw [show v49 = opH v45 v48 v47 v46 (X 12) (rc 45) 11 from rfl, h45, h48, h47, h46]
    exact stepH X s 45 (by decide) (by decide)
  have h50 : v50 = V X s 50 := by
    rw [show v50 = opH v46 v49 v48 v47 (X 15) (rc 46) 16 from rfl, h46, h49, h48, h47]
    exact stepH X s 46 (by decide) (by decide)
  have h51 : v51 = V X s 51 := by
    rw [show v51 = opH v47 v50 v49 v48 (X 2) (rc 47) 23 from rfl, h47, h50, h49, h48]
    exact stepH X s 47 (by decide) (by decide)
  have h52 : v52 = V X s 52 := by
    rw [show v52 = opI v48 v51 v50 v49 (X 0) (rc 48) 6 from rfl, h48, h51, h50, h49]
    exact stepI X s 48 (by decide) (by decide)
  have h53 : v53 = V X s 53 := by
    rw [show v53 = opI v49 v52 v51 v50 (X 7) (rc 49) 10 from rfl, h49, h52, h51, h50]
    exact stepI X s 49 (by decide) (by decide)
  have h54 : v54 = V X s 54 := by
    rw [show v54 = opI v50 v53 v52 v51 (X 14) (rc 50) 15 from rfl, h50, h53, h52, h51]
    exact stepI X s 50 (by decide) (by decide)
  have h55 : v55 = V X s 55 := by
    rw [show v55 = opI v51 v54 v53 v52 (X 5) (rc 51) 21 from rfl, h51, h54, h53, h52]
    exact stepI X s 51 (by decide) (by decide)
  have h56 : v56 = V X s 56 := by
    rw [show v56 = opI v52 v55 v54 v53 (X 12) (rc 52) 6 from rfl, h52, h55, h54, h53]
    exact stepI X s 52 (by decide) (by decide)
  have h57 : v57 = V X s 57 := by
    rw [show v57 = opI v53 v56 v55 v54 (X 3) (rc 53) 10 from rfl, h53, h56, h55, h54]
    exact stepI X s 53 (by decide) (by decide)
  have h58 : v58 = V X s 58 := by
    rw [show v58 = opI v54 v57 v56 v55 (X 10) (rc 54) 15 from rfl, h54, h57, h56, h55]
    exact stepI X s 54 (by decide) (by decide)
  have h59 : v59 = V X s 59 := by
    rw [show v59 = opI v55 v58 v57 v56 (X 1) (rc 55) 21 from rfl, h55, h58, h57, h56]
    exact stepI X s 55 (by decide) (by decide)
  have h60 : v60 = V X s 60 := by
    rw [show v60 = opI v56 v59 v58 v57 (X 8) (rc 56) 6 from rfl, h56, h59, h58, h57]
    exact stepI X s 56 (by decide) (by decide)
  have h61 : v61 = V X s 61 := by
    rw [show v61 = opI v57 v60 v59 v58 (X 15) (rc 57) 10 from rfl, h57, h60, h59, h58]
    exact stepI X s 57 (by decide) (by decide)
  have h62 : v62 = V X s 62 := by
    rw [show v62 = opI v58 v61 v60 v59 (X 6) (rc 58) 15 from rfl, h58, h61, h60, h59]
    exact stepI X s 58 (by decide) (by decide)
  have h63 : v63 = V X s 63 := by
    rw [show v63 = opI v59 v62 v61 v60 (X 13) (rc 59) 21 from rfl, h59, h62, h61, h60]
    exact stepI X s 59 (by decide) (by decide)
  have h64 : v64 = V X s 64 := by
    rw [show v64 = opI v60 v63 v62 v61 (X 4) (rc 60) 6 from rfl, h60, h63, h62, h61]
    exact stepI X s 60 (by decide) (by decide)
  have h65 : v65 = V X s 65 := by
    rw [show v65 = opI v61 v64 v63 v62 (X 11) (rc 61) 10 from rfl, h61, h64, h63, h62]
    exact stepI X s 61 (by decide) (by decide)
  have h66 : v66 = V X s 66 := by
    rw [show v66 = opI v62 v65 v64 v63 (X 2) (rc 62) 15 from rfl, h62, h65, h64, h63]
    exact stepI X s 62 (by decide) (by decide)
  have h67 : v67 = V X s 67 := by
    rw [show v67 = opI v63 v66 v65 v64 (X 9) (rc 63) 21 from rfl, h63, h66, h65, h64]
    exact stepI X s 63 (by decide) (by decide)
  rw [h64, h65, h66, h67, Spec.Md5.compress, steps_V]
  rfl

theorem compress_eq (s : V4 W32) (blks : List Bytes) :
    compress s blks = blks.foldl Spec.Md5.compress s := by
  rw [compress, show compressBlock = Spec.Md5.compress from funext fun s => funext (compressBlock_eq s)]

theorem lawful : md5.Lawful (fun _ => True) where
  bs_pos := by decide
  nil := fun s => by simp [md5, updateBlocks, compress]
  app := fun s x y => by simp [md5, updateBlocks, compress, BitVec.ofNat_add, BitVec.add_assoc]
  inv_init := trivial
  inv_update := fun _ _ _ _ => trivial
  reset_eq := fun _ _ => rfl
  fin_congr := fun s b b' h h' hc => by
    simp only [md5, finalize, BlockBuffer.len64PaddingLE]
    rw [pos_congr h h' hc, digestPad_congr (bs := 64) h h' hc (by simp)]

theorem serLawful : md5.SerLawful (fun _ => True) where
  bs_le := by decide
  len := fun s _ => by simp [md5, serialize, length_bytesOfWordsLE, V4.toList]
  round := fun s _ => by
    simp only [md5, serialize, deserialize]
    rw [if_pos (by simp [length_bytesOfWordsLE, V4.toList])]
    have h : ∀ i (hi : i < 4), wordLE 32 (bytesOfWordsLE s.state.toList ++ leBytes 8 s.blockLen.toNat) i =
      s.state.toList.getD i 0 := fun i hi => wordLE_append (by decide) _ _ _ (by simpa [V4.toList] using hi)
    rw [List.drop_left' (by simp [length_bytesOfWordsLE, V4.toList]), counter_round (by decide)]
    simp only [V4.ofFn, h 0 (by decide), h 1 (by decide), h 2 (by decide), h 3 (by decide)]
    rfl

theorem deserLawful : md5.DeserLawful where
  canon := fun raw s h => by
    simp only [md5, deserialize, serialize] at h ⊢
    split at h
    · rename_i hl
      injection h with h
      subst h
      have : (V4.ofFn (wordLE 32 raw)).toList = (List.range 4).map (wordLE 32 raw) := rfl
      rw [this, bytesOfWordsLE_range (by decide) _ _ (by omega), counter_canon (by decide) (by simp [hl])]
      simp
    · cases h

theorem digest_eq (m : Bytes) : md5.digest m = Spec.Md5.md5 m := by
  obtain ⟨b, h1, h2, h3, h4⟩ := Core.digest_eager lawful rfl m
  rw [h4]
  simp only [md5] at h1 h2 h3 ⊢
  simp only [finalize, updateBlocks, compress_eq, BlockBuffer.len64PaddingLE, List.foldl_cons,
    List.foldl_nil, length_blocks, h3, init]
  rw [BitVec.mul_comm _ (8 : W64), BitVec.mul_comm _ (64 : W64), BitVec.add_comm ((64 : W64) * _), show (64 : W64) = BitVec.ofNat 64 64 from rfl, bitLen_eq, leBytes_counter (by decide)]
  rw [Spec.Md5.md5, Spec.Md5.pad, ← md_finalize (by decide) h1 (by simp) _ _ m h2]
  rfl

end Md5
end Hashes
