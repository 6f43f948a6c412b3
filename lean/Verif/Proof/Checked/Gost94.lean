import Verif.Checked.Gost94
import Verif.Proof.Gost94
import Verif.Proof.Rust
/- The checked transcription of GOST R 34.11-94 never panics, if the S-box has four-bit entries, and agrees with the model. -/
namespace Hashes.Gost94
open Rs
/-- An S-box as the algorithm means it: eight rows of sixteen four-bit entries. -/
def IsBox (s : List (List Byte)) : Prop := s.length = 8 ∧ ∀ r ∈ s, r.length = 16 ∧ ∀ e ∈ r, e.toNat < 16

theorem IsBox.row {s : List (List Byte)} (h : IsBox s) {i : Nat} (hi : i < 8) :
    (s.getD i []).length = 16 ∧ ∀ k < 16, ((s.getD i []).getD k 0).toNat < 16 := by
  have hm : s.getD i [] ∈ s := by
    rw [List.getD_eq_getElem?_getD, List.getElem?_eq_getElem (by rw [h.1]; exact hi)]; exact List.getElem_mem _
  obtain ⟨h1, h2⟩ := h.2 _ hm
  refine ⟨h1, fun k hk => h2 _ ?_⟩
  rw [List.getD_eq_getElem?_getD (l := s.getD i []), List.getElem?_eq_getElem (by omega)]; exact List.getElem_mem _

theorem nibbleC (a : W32) {i : Nat} (hi : i < 8) : ((a &&& ((0b1111 : W32) <<< (4 * i))) >>> (4 * i)).toNat < 16 := by
  rw [BitVec.toNat_ushiftRight, BitVec.toNat_and]
  have h1 : a.toNat &&& ((0b1111 : W32) <<< (4 * i)).toNat ≤ ((0b1111 : W32) <<< (4 * i)).toNat := Nat.and_le_right
  have h2 : ((0b1111 : W32) <<< (4 * i)).toNat >>> (4 * i) = 15 := by
    have : ∀ i < 8, ((0b1111 : W32) <<< (4 * i)).toNat >>> (4 * i) = 15 := by decide
    exact this i hi
  rw [Nat.shiftRight_eq_div_pow] at h2 ⊢
  have := Nat.div_le_div_right (c := 2 ^ (4 * i)) h1
  omega

theorem sboxC_eq {s : List (List Byte)} (h : IsBox s) (a : W32) : sboxC a s = some (sbox a s) := by
  refine (loop_inv _ (fun i (v : W32) => v.toNat < 2 ^ (4 * i)) (by decide) fun i v hi hv => ?_).1
  obtain ⟨h1, h2⟩ := h.row hi
  have hk := nibbleC a hi
  dsimp only
  rw [shl_lt (by omega)]
  show (shr _ _).bind _ = _ ∧ _
  rw [shr_lt (by omega), Option.bind_some, idx_lt [] (by rw [h.1]; exact hi)]
  show (idx _ _).bind _ = _ ∧ _
  rw [idx_lt 0 (by rw [h1]; exact hk), Option.bind_some, shl_lt (by omega)]
  show add _ _ = _ ∧ _
  have he := h2 _ hk
  generalize ((s.getD i []).getD ((a &&& ((0b1111 : W32) <<< (4 * i))) >>> (4 * i)).toNat 0) = e at he
  have hp : 2 ^ (4 * (i + 1)) = 16 * 2 ^ (4 * i) := by rw [Nat.mul_succ, Nat.pow_add, Nat.mul_comm]
  have hle : 2 ^ (4 * (i + 1)) ≤ 2 ^ 32 := Nat.pow_le_pow_right (by decide) (by omega)
  have hs : ((e.setWidth 32 : W32) <<< (4 * i)).toNat = e.toNat * 2 ^ (4 * i) := by
    rw [BitVec.toNat_shiftLeft, BitVec.toNat_setWidth, Nat.mod_eq_of_lt (show e.toNat < 2 ^ 32 by omega), Nat.shiftLeft_eq]
    refine Nat.mod_eq_of_lt ?_
    calc e.toNat * 2 ^ (4 * i) < 16 * 2 ^ (4 * i) := Nat.mul_lt_mul_of_pos_right he (Nat.two_pow_pos _)
      _ ≤ 2 ^ 32 := by omega
  have hsum : v.toNat + e.toNat * 2 ^ (4 * i) < 2 ^ (4 * (i + 1)) := by
    have : e.toNat * 2 ^ (4 * i) ≤ 15 * 2 ^ (4 * i) := Nat.mul_le_mul_right _ (by omega)
    omega
  refine ⟨if_pos (by rw [hs]; omega), ?_⟩
  rw [BitVec.toNat_add, hs, Nat.mod_eq_of_lt (by omega)]
  exact hsum

theorem roundC_eq {s : List (List Byte)} (h : IsBox s) {k : List W32} (ab : W32 × W32) {i : Nat} (hi : i < k.length) :
    roundC k s ab i = some (round s ab (k.getD i 0)) := by
  rw [roundC, idx_lt 0 hi]
  show (gC _ _ _).bind _ = _
  rw [gC, sboxC_eq h]
  rfl

theorem encryptC_eq {s : List (List Byte)} (h : IsBox s) {msg key : Bytes} (hm : msg.length = 8) (hk : key.length = 32) :
    encryptC msg key s = some (encrypt msg key s) := by
  have hl : load (List.replicate 8 (0 : W32)) key 4 (fromLe 32) = some ((List.range 8).map (wordLE 32 key)) :=
    load_le (w := 32) (by decide) (by simp) (by simpa using hk)
  have hkl : ((List.range 8).map (wordLE 32 key)).length = 8 := by simp
  have e1 (ab : W32 × W32) : loop 8 ab (roundC ((List.range 8).map (wordLE 32 key)) s) =
      some (((List.range 8).map (wordLE 32 key)).foldl (round s) ab) := by
    rw [loop_fold' _ fun i t hi => roundC_eq h t (by rw [hkl]; exact hi)]
    exact congrArg some (foldl_getD 0 _ _ _ (fun i hi => List.mem_range.1 hi) _)
  have e2 (ab : W32 × W32) : loopRev 8 ab (roundC ((List.range 8).map (wordLE 32 key)) s) =
      some (((List.range 8).map (wordLE 32 key)).reverse.foldl (round s) ab) := by
    rw [loopRev, (foldlM_some (fun ab i => round s ab (((List.range 8).map (wordLE 32 key)).getD i 0)) (fun _ => True) trivial
      fun i hi t _ => ⟨roundC_eq h t (by rw [hkl]; simpa using hi), trivial⟩).1, ← List.map_reverse]
    exact congrArg some (foldl_getD 0 _ _ _ (fun i hi => by simpa using hi) _)
  rw [encryptC, slice_le (by decide) (by omega)]
  show (fromLe 32 _).bind _ = _
  rw [fromLe, if_pos (by simp [hm]), Option.bind_some, slice_le (by decide) (by omega)]
  show (fromLe 32 _).bind _ = _
  rw [fromLe, if_pos (by simp [hm]), Option.bind_some, hl]
  show (loop 3 _ _).bind _ = _
  rw [loop_fold' _ fun i t _ => e1 t, Option.bind_some]
  show (loopRev 8 _ _).bind _ = _
  rw [e2, Option.bind_some]
  show (copy _ _ _ _).bind _ = some (leBytes 4 _ ++ leBytes 4 _)
  generalize hab : List.foldl _ _ (List.reverse _) = ab2
  rw [copy_le (by decide) (by omega) (by simp), Option.bind_some, copy_le (by decide) (by simp [hm]) (by simp)]
  have r1 : List.take 4 (List.take 0 msg ++ leBytes 4 ab2.2.toNat ++ List.drop 4 msg) = leBytes 4 ab2.2.toNat := by
    rw [List.take_zero, List.nil_append]
    exact List.take_left' (by simp)
  have r2 : List.drop 8 (List.take 0 msg ++ leBytes 4 ab2.2.toNat ++ List.drop 4 msg) = [] :=
    List.drop_eq_nil_of_le (by simp [hm])
  rw [r1, r2, List.append_nil, ← hab]
  rfl

theorem xC_eq {a b : Bytes} (ha : a.length = 32) (hb : b.length = 32) : xC a b = some (x a b) :=
  loop_fill _ (by simp) fun i l hi hl => by
    rw [idx_lt 0 (by omega), idx_lt 0 (by omega)]
    exact upd_lt (by omega)

theorem xMutC_eq {a b : Bytes} (ha : a.length = 32) (hb : b.length = 32) : xMutC a b = some (x a b) :=
  loop_modify 0 (fun i v => v ^^^ b.getD i 0) ha fun i l hi hl _ => by
    rw [idx_lt 0 (by omega), idx_lt 0 (by omega)]
    exact upd_lt (by omega)

theorem psiC_eq {y : Bytes} (ha : y.length = 32) : psiC y = some (psi y) := by
  obtain ⟨f, rfl⟩ := exists_range ha
  simp only [List.range, List.range.loop, List.map]
  simp [psiC, psi, copy, slice, xorAt, idx, upd]

theorem aC_eq {y : Bytes} (ha : y.length = 32) : aC y = some (a y) := by
  obtain ⟨f, rfl⟩ := exists_range ha
  simp [List.range, List.range.loop, List.map, aC, a, copy, slice, loop, idx, upd]

theorem pC_eq {y : Bytes} (ha : y.length = 32) : pC y = some (p y) := by
  obtain ⟨f, rfl⟩ := exists_range ha
  simp [List.range, List.range.loop, List.map, pC, p, loop, idx, upd]

theorem length_xC (a b : Bytes) : (x a b).length = 32 := by simp [x]
theorem length_aC {y : Bytes} (h : y.length = 32) : (a y).length = 32 := by simp [a, h]
theorem length_pC (y : Bytes) : (p y).length = 32 := by simp [p]
theorem length_psiC {y : Bytes} (h : y.length = 32) : (psi y).length = 32 := by simp [psi, h]
theorem length_psiNC (n : Nat) {y : Bytes} (h : y.length = 32) : (psiN n y).length = 32 := by
  induction n generalizing y with
  | zero => exact h
  | succ n ih => exact ih (length_psiC h)
theorem length_encryptC (m k : Bytes) (s : List (List Byte)) : (encrypt m k s).length = 8 := by simp [encrypt]

theorem loop_psi (n : Nat) {y : Bytes} (h : y.length = 32) : (loop n y fun b _ => psiC b) = some (psiN n y) := by
  rw [loop_fold (fun b _ => psi b) (fun b => b.length = 32) h fun i t _ ht => ⟨psiC_eq ht, length_psiC ht⟩]
  congr 1
  have : ∀ (l : List Nat) (y : Bytes), l.foldl (fun b _ => psi b) y = psiN l.length y := by
    intro l
    induction l with
    | nil => intro y; rfl
    | cons i l ih => intro y; exact ih (psi y)
  rw [this, List.length_range]


theorem shuffleC_eq {h m s : Bytes} (hh : h.length = 32) (hm : m.length = 32) (hs : s.length = 32) :
    shuffleC h m s = some (shuffle h m s) := by
  have e12 : (loop 12 s fun b _ => psiC b) = some (psiN 12 s) := loop_psi 12 hs
  have e61 : (loop 61 (x h (psi (x (psiN 12 s) m))) fun b _ => psiC b) = some (psiN 61 (x h (psi (x (psiN 12 s) m)))) :=
    loop_psi 61 (length_xC _ _)
  have e0 : copy (List.replicate 32 (0 : Byte)) 0 32 s = some s := by
    rw [copy_le (by decide) (by simp) (by simpa using hs)]; simp
  exact bind_ok e0 <| bind_ok e12 <| bind_ok (xMutC_eq (length_psiNC 12 hs) hm) <| bind_ok (psiC_eq (length_xC _ _)) <|
    bind_ok (xMutC_eq hh (length_psiC (length_xC _ _))) e61

/-- One `encrypt` call on a slice of `s`. -/
theorem encryptAt {sb : List (List Byte)} (hb : IsBox sb) {pre c post k : Bytes} (hp : pre.length + 8 + post.length = 32)
    (hc : c.length = 8) (hk : k.length = 32) {β : Type} {r : Bytes → Option β} {v : Option β} {i j : Nat} (hi : pre.length = i) (hj : i + 8 = j)
    (h : r (pre ++ (encrypt c k sb ++ post)) = v) :
    (slice (pre ++ (c ++ post)) i j >>= fun z => encryptC z k sb >>= fun e => copy (pre ++ (c ++ post)) i j e >>= r) = v := by
  have e1 : ((pre ++ (c ++ post)).drop i).take 8 = c := by
    rw [← hi, List.drop_left, List.take_append_of_le_length (by omega), List.take_of_length_le (by omega)]
  have e2 : (pre ++ (c ++ post)).take i = pre := by rw [← hi, List.take_left]
  have e3 : (pre ++ (c ++ post)).drop j = post := by
    rw [← hj, ← hi, ← List.drop_drop, List.drop_left, List.drop_append, List.drop_eq_nil_of_le (by omega), hc]; simp
  refine bind_ok (v := c) ?_ (bind_ok (encryptC_eq hb hc hk) (bind_ok (v := pre ++ (encrypt c k sb ++ post)) ?_ h))
  · rw [slice_le (by omega) (by simp; omega), show j - i = 8 by omega, e1]
  · rw [copy_le (by omega) (by simp; omega) (by rw [length_encryptC]; omega), e2, e3, List.append_assoc]

theorem fC_eq {sb : List (List Byte)} (hb : IsBox sb) {h m : Bytes} (hh : h.length = 32) (hm : m.length = 32) :
    fC sb h m = some (f sb h m) := by
  have hC : C.length = 32 := by decide
  have s0 : copy (List.replicate 32 (0 : Byte)) 0 32 h = some h := by
    rw [copy_le (by decide) (by simp) (by simpa using hh)]; simp
  have la := length_aC hh
  have lm := length_aC (length_aC hm)
  have lc := length_xC (a (a h)) C
  have lm2 := length_aC (length_aC lm)
  have lm3 := length_aC (length_aC lm2)
  have lu3 := length_aC lc
  obtain ⟨c0, c1, c2, c3, l0, l1, l2, l3, rfl⟩ : ∃ c0 c1 c2 c3 : Bytes, c0.length = 8 ∧ c1.length = 8 ∧ c2.length = 8 ∧
      c3.length = 8 ∧ h = c0 ++ (c1 ++ (c2 ++ c3)) := by
    refine ⟨h.take 8, (h.drop 8).take 8, (h.drop 16).take 8, h.drop 24, by simp [hh], by simp [hh], by simp [hh], by simp [hh], ?_⟩
    have e2 := List.take_append_drop 8 (h.drop 16)
    have e1 := List.take_append_drop 8 (h.drop 8)
    rw [List.drop_drop] at e1 e2
    rw [e2, e1, List.take_append_drop]
  have d0 : ((c0 ++ (c1 ++ (c2 ++ c3))).drop 0).take 8 = c0 := by simp [l0]
  have d1 : ((c0 ++ (c1 ++ (c2 ++ c3))).drop 8).take 8 = c1 := by simp [l0, l1]
  have d2 : ((c0 ++ (c1 ++ (c2 ++ c3))).drop 16).take 8 = c2 := by
    rw [List.drop_append, List.drop_eq_nil_of_le (by omega)]; simp [l0, l1, l2]
  have d3 : ((c0 ++ (c1 ++ (c2 ++ c3))).drop 24).take 8 = c3 := by
    rw [List.drop_append, List.drop_eq_nil_of_le (by omega), List.nil_append, List.drop_append, List.drop_eq_nil_of_le (by omega)]
    rw [l0, l1]; simp [l2, List.take_of_length_le (Nat.le_of_eq l3)]
  have ef := f.eq_1 sb (c0 ++ (c1 ++ (c2 ++ c3))) m
  simp only [d0, d1, d2, d3] at ef
  rw [ef]
  generalize hH : c0 ++ (c1 ++ (c2 ++ c3)) = H at *
  refine bind_ok s0 <| bind_ok (xC_eq hh hm) <| bind_ok (pC_eq (length_xC _ _)) ?_
  rw [← hH]
  refine encryptAt hb (pre := []) (by simp; omega) l0 (length_pC _) rfl rfl ?_
  rw [hH]
  refine bind_ok (aC_eq hh) <| bind_ok (aC_eq hm) <| bind_ok (aC_eq (length_aC hm)) <| bind_ok (xC_eq la lm) <|
    bind_ok (pC_eq (length_xC _ _)) ?_
  refine encryptAt hb (by simp [length_encryptC]; omega) l1 (length_pC _) (by simp [length_encryptC]) rfl ?_
  refine bind_ok (aC_eq la) <| bind_ok (xMutC_eq (length_aC la) hC) <| bind_ok (aC_eq lm) <| bind_ok (aC_eq (length_aC lm)) <|
    bind_ok (xC_eq lc lm2) <| bind_ok (pC_eq (length_xC _ _)) ?_
  rw [← List.append_assoc]
  refine encryptAt hb (by simp [length_encryptC]; omega) l2 (length_pC _) (by simp [length_encryptC]) rfl ?_
  refine bind_ok (aC_eq lc) <| bind_ok (aC_eq lm2) <| bind_ok (aC_eq (length_aC lm2)) <| bind_ok (xC_eq lu3 lm3) <|
    bind_ok (pC_eq (length_xC _ _)) ?_
  rw [← List.append_assoc, ← List.append_nil c3]
  refine encryptAt hb (by simp [length_encryptC]) l3 (length_pC _) (by simp [length_encryptC]) rfl ?_
  rw [shuffleC_eq hh hm (by simp [length_encryptC]), List.append_nil, List.append_nil]

theorem addC128 (x y : W128) (h : x.toNat + y.toNat < 2 ^ 128) : add x y = some (x + y) := if_pos h

theorem adcC_eq (a b c : W64) : adcC a b c = some (adc a b c) := by
  have h1 := a.isLt
  have h2 := b.isLt
  have h3 := c.isLt
  have e1 : (a.setWidth 128).toNat = a.toNat := BitVec.toNat_setWidth_of_le (by decide)
  have e2 : (b.setWidth 128).toNat = b.toNat := BitVec.toNat_setWidth_of_le (by decide)
  have e3 : (c.setWidth 128).toNat = c.toNat := BitVec.toNat_setWidth_of_le (by decide)
  rw [adcC, addC128 _ _ (by omega)]
  show (add _ _).bind _ = _
  rw [addC128 _ _ (by rw [BitVec.toNat_add]; omega), Option.bind_some, shr_lt (by decide)]
  rfl

theorem updateNC_eq (n : V4 W64) (len : W64) : updateNC n.toList len = some (updateN n len).toList := by
  simp [updateNC, adcAt, adcC_eq, shl, shr, idx, upd, V4.toList, updateN, addLimbs]

theorem updateSigmaC_eq (n : V4 W64) {m : Bytes} (hm : m.length = 32) :
    updateSigmaC n.toList m = some (updateSigma n m).toList := by
  have hc : chunks 8 m = [m.take 8, (m.drop 8).take 8, (m.drop 16).take 8, (m.drop 24).take 8] := by
    simp [chunks, hm, blocks]
  simp [updateSigmaC, hc, V4.toList, adcC_eq, fromLe, hm, updateSigma, addLimbs, V4.ofFn, wordLE]

/-- The arrays of a state. -/
def State.toC (s : State) : StateC := ⟨s.h, s.n.toList, s.sigma.toList⟩

theorem compressC_eq {sb : List (List Byte)} (hb : IsBox sb) {s : State} (hs : s.h.length = 32) {block : Bytes}
    (h : block.length = 32) : compressC sb s.toC block = some (compress sb s block).toC :=
  bind_ok (fC_eq hb hs h) <| bind_ok (updateSigmaC_eq s.sigma h) rfl

theorem finalizeC_eq {sb : List (List Byte)} (hb : IsBox sb) {s : State} (hs : s.h.length = 32) {buffer : BlockBuffer}
    (hw : buffer.WF .eager 32) {out : Bytes} (ho : out.length = 32) : finalizeC sb s.toC buffer out = some (finalize sb s buffer) := by
  have hl : lastBlockC sb s.toC buffer = some (if buffer.pos ≠ 0 then
      compress sb ⟨s.h, updateN s.n (BitVec.ofNat 64 buffer.pos), s.sigma⟩ (buffer.padWithZeros 32).1 else s).toC := by
    rw [lastBlockC]
    split
    · refine bind_ok (updateNC_eq s.n _) (compressC_eq hb (s := ⟨s.h, updateN s.n (BitVec.ofNat 64 buffer.pos), s.sigma⟩) hs ?_)
      have : buffer.pos < 32 := hw.2
      simp [BlockBuffer.padWithZeros, hw.1]; omega
    · rfl
  rw [finalize]
  have hh : (if buffer.pos ≠ 0 then
      compress sb ⟨s.h, updateN s.n (BitVec.ofNat 64 buffer.pos), s.sigma⟩ (buffer.padWithZeros 32).1 else s).h.length = 32 := by
    split
    · exact length_f ..
    · exact hs
  refine bind_ok hl ?_
  generalize (if buffer.pos ≠ 0 then
      compress sb ⟨s.h, updateN s.n (BitVec.ofNat 64 buffer.pos), s.sigma⟩ (buffer.padWithZeros 32).1 else s) = t at hh
  have st (b : Bytes) (hb : b.length = 32) (v : V4 W64) : (store b v.toList 8 fun v => leBytes 8 v.toNat) = some (bytesOfWordsLE v.toList) :=
    store_eq (n := 4) (by decide) rfl hb fun x => by simp
  refine bind_ok (st _ (by simp) _) <| bind_ok (fC_eq hb hh (length_words4 _)) <| bind_ok (st _ (length_words4 _) _) <|
    bind_ok (fC_eq hb (length_f ..) (length_words4 _)) (copy_all ?_)
  rw [length_f, ho]

end Hashes.Gost94
