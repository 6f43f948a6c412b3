import Verif.Props.Drop
/- C48: the cells of the wrappers, of BLAKE2 and its MAC, of KangarooTwelve and of sha1-checked determine the value, so that "every cell is
zero" (or what is said of cells that are not) overlooks no field of these types either. -/
namespace Hashes

theorem faithful_nat : Faithful Nat where
  inj h := by
    simp only [cells, List.cons.injEq, and_true] at h
    exact h
  len _ _ := rfl
theorem faithful_bool : Faithful Bool where
  inj {x y} h := by
    simp only [cells, List.cons.injEq, and_true] at h
    cases x <;> cases y <;> first | rfl | cases h
  len _ _ := rfl
theorem faithful_buffer : Faithful BlockBuffer where
  inj {x y} h := by
    obtain ⟨h0, h⟩ := faithful_nat.split (show cells x.pos ++ cells x.data = cells y.pos ++ cells y.data from h)
    cases x; cases y; cases h0; cases faithful_list.inj h; rfl
  len _ _ := rfl

/-- C48. A whole hasher: its buffer (bytes and position) and its core are all among the cells. -/
theorem C48_cells_hasher {σ : Type} {d : Droppable σ} (h : Wiped σ d) {x y : Hasher σ} (e : cells x = cells y) : x = y := by
  obtain ⟨h0, e⟩ := faithful_buffer.split (show cells x.buf ++ cells x.core = cells y.buf ++ cells y.core from e)
  cases x; cases y; cases h0; cases C48_cells h e; rfl

/-- C48. A whole reader. -/
theorem C48_cells_reader {σ : Type} {d : Droppable σ} (h : Wiped σ d) {x y : Reader σ} (e : cells x = cells y) : x = y := by
  simp only [cells, List.append_assoc] at e
  obtain ⟨h0, e⟩ := faithful_nat.split e
  obtain ⟨h1, e⟩ := faithful_list.split e
  cases x; cases y; cases h0; cases h1; cases C48_cells h e; rfl

theorem faithful_turbo : Faithful (Hasher Sha3.Turbo) where
  inj := C48_cells_hasher .turbo
  len _ _ := rfl

/-- C48. KangarooTwelve: everything but the borrowed customization string. -/
theorem C48_cells_k12 {x y : K12.State} (hc : x.customization = y.customization) (e : cells x = cells y) : x = y := by
  simp only [cells, List.append_assoc] at e
  obtain ⟨h0, e⟩ := faithful_list.split e
  obtain ⟨h1, e⟩ := faithful_nat.split e
  obtain ⟨h2, e⟩ := faithful_nat.split e
  obtain ⟨h3, e⟩ := faithful_turbo.split (show cells x.finalT ++ cells x.chainT = cells y.finalT ++ cells y.chainT from by
    simpa only [cells, List.append_assoc] using e)
  have h4 := faithful_turbo.inj e
  cases x; cases y; cases hc; cases h0; cases h1; cases h2; cases h3; cases h4; rfl

theorem faithful_blake2 {w : Nat} : Faithful (Blake2.State w) where
  inj {x y} e := by
    have v : Faithful (V2 (Blake2.Vec w)) := faithful_v2 (faithful_v4 faithful_bv)
    have e : cells x.h ++ (cells x.t ++ cells x.h0) = cells y.h ++ (cells y.t ++ cells y.h0) := by
      rw [← List.append_assoc, ← List.append_assoc]; exact e
    obtain ⟨h0, e⟩ := v.split e
    obtain ⟨h1, e⟩ := faithful_bv.split e
    have h2 := v.inj e
    cases x; cases y; cases h0; cases h1; cases h2; rfl
  len _ _ := rfl

/-- C48. BLAKE2b and BLAKE2s: chaining value, counter and the saved initial state. -/
theorem C48_cells_blake2 {w : Nat} {x y : Blake2.State w} (e : cells x = cells y) : x = y := faithful_blake2.inj e

/-- C48. The MACs: the key block, if there is one, and whether there is one. -/
theorem C48_cells_mac {w : Nat} {x y : Blake2.Mac w} (e : cells x = cells y) : x = y := by
  obtain ⟨c, b, k⟩ := x
  obtain ⟨c', b', k'⟩ := y
  have e : cells b ++ (cells c ++ (match (generalizing := false) k with | some k => cells k | none => [])) =
      cells b' ++ (cells c' ++ (match (generalizing := false) k' with | some k => cells k | none => [])) := by
    rw [← List.append_assoc, ← List.append_assoc]; exact e
  obtain ⟨h0, e1⟩ := faithful_buffer.split e
  obtain ⟨h1, e2⟩ := faithful_blake2.split e1
  clear e e1
  cases h0; cases h1
  cases k <;> cases k'
  · rfl
  · simp [cells] at e2
  · simp [cells] at e2
  · cases faithful_list.inj e2; rfl

theorem faithful_detection : Faithful Sha1Checked.Detection where
  inj {x y} e := by
    have v : Faithful (V5 W32) := faithful_v5 faithful_bv
    have e : cells x.safeHash ++ (cells x.ubcCheck ++ (cells x.reducedRoundCollision ++ (cells x.foundCollision ++ (cells x.ihv1 ++
        (cells x.ihv2 ++ (cells x.m1 ++ (cells x.m2 ++ (cells x.state58 ++ cells x.state65)))))))) =
      cells y.safeHash ++ (cells y.ubcCheck ++ (cells y.reducedRoundCollision ++ (cells y.foundCollision ++ (cells y.ihv1 ++
        (cells y.ihv2 ++ (cells y.m1 ++ (cells y.m2 ++ (cells y.state58 ++ cells y.state65)))))))) := by
      simp only [← List.append_assoc]; exact e
    obtain ⟨h0, e⟩ := faithful_bool.split e
    obtain ⟨h1, e⟩ := faithful_bool.split e
    obtain ⟨h2, e⟩ := faithful_bool.split e
    obtain ⟨h3, e⟩ := faithful_bool.split e
    obtain ⟨h4, e⟩ := v.split e
    obtain ⟨h5, e⟩ := v.split e
    obtain ⟨h6, e⟩ := faithful_arr.split e
    obtain ⟨h7, e⟩ := faithful_arr.split e
    obtain ⟨h8, e⟩ := v.split e
    have h9 := v.inj e
    cases x; cases y; cases h0; cases h1; cases h2; cases h3; cases h4; cases h5; cases h6; cases h7; cases h8; cases h9; rfl
  len _ _ := rfl

/-- C48. sha1-checked: chaining value, counter, and the detection state with its settings, if there is one. -/
theorem C48_cells_sha1Checked {x y : Sha1Checked.State} (e : cells x = cells y) : x = y := by
  obtain ⟨h, n, d⟩ := x
  obtain ⟨h', n', d'⟩ := y
  have e : cells h ++ (cells n ++ (match (generalizing := false) d with | some d => cells d | none => [])) =
      cells h' ++ (cells n' ++ (match (generalizing := false) d' with | some d => cells d | none => [])) := by
    rw [← List.append_assoc, ← List.append_assoc]; exact e
  obtain ⟨h0, e1⟩ := (faithful_v5 faithful_bv).split e
  obtain ⟨h1, e2⟩ := faithful_bv.split e1
  clear e e1
  cases h0; cases h1
  cases d <;> cases d'
  · rfl
  · simp [cells] at e2
  · simp [cells] at e2
  · cases faithful_detection.inj e2; rfl

/-- Concrete case: two MAC states that differ in the counter only have different cells. -/
example : cells (⟨⟨⟨⟨1, 2, 3, 4⟩, ⟨5, 6, 7, 8⟩⟩, 64, ⟨⟨0, 0, 0, 0⟩, ⟨0, 0, 0, 0⟩⟩⟩, ⟨[9], 1⟩, none⟩ : Blake2.Mac 32) ≠
    cells (⟨⟨⟨⟨1, 2, 3, 4⟩, ⟨5, 6, 7, 8⟩⟩, 128, ⟨⟨0, 0, 0, 0⟩, ⟨0, 0, 0, 0⟩⟩⟩, ⟨[9], 1⟩, none⟩ : Blake2.Mac 32) := by decide

end Hashes
