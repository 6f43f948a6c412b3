import Verif.Checked.Sha2Ptr
import Verif.Proof.Raw
/- SHA-2 through raw pointers: no access leaves its object. -/
namespace Hashes
open Rs Raw

theorem Raw.length_store (v : V128) : (Simd.store v).length = 16 := rfl

theorem Raw.store_fst (d : Bytes) (a : V128) : d.take 0 ++ Simd.store a ++ d.drop 16 = Simd.store a ++ d.drop 16 := rfl

/-- A store right after what is already written. -/
theorem Raw.store_next {d pre : Bytes} {a : V128} {n : Nat} (hp : pre.length = n) :
    (pre ++ d.drop n).take n ++ Simd.store a ++ (pre ++ d.drop n).drop (n + 16) = (pre ++ Simd.store a) ++ d.drop (n + 16) := by
  subst hp
  rw [List.take_left', List.drop_append, List.drop_of_length_le (by omega), List.nil_append, List.drop_drop]
  · congr 2; omega
  · rfl

namespace Sha256

theorem length_stateObj (a : Nat) (s : V8 W32) : (stateObj a s).data.length = 32 := length_bytesOfWordsLE _
theorem length_kObj (a : Nat) : (kObj a).data.length = 256 := (length_bytesOfWordsLE _).trans (by decide)

/-- Two stores fill the state. -/
theorem stored {d : Bytes} (h : d.length = 32) (a b : V128) :
    (d.take 0 ++ Simd.store a ++ d.drop 16).take 16 ++ Simd.store b ++ (d.take 0 ++ Simd.store a ++ d.drop 16).drop 32 =
      Simd.store a ++ Simd.store b := by
  rw [store_fst, store_next (n := 16) (length_store a), List.drop_of_length_le (by omega), List.append_nil]

theorem length_stored {d : Bytes} (h : d.length = 32) (a : V128) : (d.take 0 ++ Simd.store a ++ d.drop 16).length = 32 := by
  rw [store_fst, List.length_append, length_store, List.length_drop, h]

theorem X86.rounds4C_eq (r : X86.Regs) (w : V128) (i : Nat) (h : i < 16) : X86.rounds4C r w i = some (X86.rounds4 r w i) := by
  refine bind_ok (v := X86.K32X4 i) ?_ rfl
  unfold Rs.idx
  rw [List.getElem?_map, List.getElem?_range (show i < K32.length / 4 from Nat.lt_of_lt_of_le h (by decide))]
  rfl

theorem X86.digestBlockC_eq (r : X86.Regs) (o : Obj) (h : o.data.length = 64) : X86.digestBlockC r o = some (X86.digestBlock r o.data) :=
  bind_ok (loadAt_le (by omega)) <| bind_ok (loadAt_le (by omega)) <| bind_ok (loadAt_le (by omega)) <| bind_ok (loadAt_le (by omega)) <|
  bind_ok (X86.rounds4C_eq _ _ 0 (by decide)) <| bind_ok (X86.rounds4C_eq _ _ 1 (by decide)) <|
  bind_ok (X86.rounds4C_eq _ _ 2 (by decide)) <| bind_ok (X86.rounds4C_eq _ _ 3 (by decide)) <|
  bind_ok (X86.rounds4C_eq _ _ 4 (by decide)) <| bind_ok (X86.rounds4C_eq _ _ 5 (by decide)) <|
  bind_ok (X86.rounds4C_eq _ _ 6 (by decide)) <| bind_ok (X86.rounds4C_eq _ _ 7 (by decide)) <|
  bind_ok (X86.rounds4C_eq _ _ 8 (by decide)) <| bind_ok (X86.rounds4C_eq _ _ 9 (by decide)) <|
  bind_ok (X86.rounds4C_eq _ _ 10 (by decide)) <| bind_ok (X86.rounds4C_eq _ _ 11 (by decide)) <|
  bind_ok (X86.rounds4C_eq _ _ 12 (by decide)) <| bind_ok (X86.rounds4C_eq _ _ 13 (by decide)) <|
  bind_ok (X86.rounds4C_eq _ _ 14 (by decide)) <| bind_ok (X86.rounds4C_eq _ _ 15 (by decide)) rfl

theorem X86.compressC_eq (a : Nat) (s : V8 W32) (blks : List Obj) (hb : ∀ o ∈ blks, o.data.length = 64) :
    X86.compressC a s blks = some (X86.compress s (blks.map Obj.data)) := by
  have hs := length_stateObj a s
  refine bind_ok (loadAt_le (by omega)) <| bind_ok (loadAt_le (by omega)) <| bind_ok (foldlM_blocks X86.digestBlockC_eq blks hb _) <|
    bind_ok (storeAt_le (by omega)) <| bind_ok (storeAt_le (Nat.le_of_eq (length_stored hs _).symm)) ?_
  show some (V8.ofFn (wordLE 32 _)) = _
  rw [show 16 * 0 = 0 from rfl, show 16 * 1 = 16 from rfl, stored hs]
  rfl

theorem Arm.rounds4C_eq (a : Nat) (r : Arm.Regs) (w : V128) (t : Nat) (h : t ≤ 60) :
    Arm.rounds4C (kObj a) r w t = some (Arm.rounds4 r w t) :=
  bind_ok ((loadElem_le (by decide) (by rw [length_kObj]; omega)).trans (congrArg some (load_words K32 t))) rfl

theorem Arm.bodyC_eq (a : Nat) (v : Arm.Vars) (t : Nat) (h : t ≤ 48) : Arm.bodyC (kObj a) v t = some (Arm.body v t) := by
  obtain ⟨r, s0, s1, s2, s3⟩ := v
  exact bind_ok (Arm.rounds4C_eq _ _ _ _ (by omega)) <| bind_ok (Arm.rounds4C_eq _ _ _ _ (by omega)) <|
    bind_ok (Arm.rounds4C_eq _ _ _ _ (by omega)) <| bind_ok (Arm.rounds4C_eq _ _ _ _ (by omega)) rfl

theorem Arm.digestBlockC_eq (a : Nat) (r : Arm.Regs) (o : Obj) (h : o.data.length = 64) :
    Arm.digestBlockC (kObj a) r o = some (Arm.digestBlock r o.data) :=
  bind_ok (loadSlice_le (by decide) (by omega) (by decide)) <| bind_ok (loadSlice_le (by decide) (by omega) (by decide)) <|
  bind_ok (loadSlice_le (by decide) (by omega) (by decide)) <| bind_ok (loadSlice_le (by decide) (by omega) (by decide)) <|
  bind_ok (Arm.rounds4C_eq _ _ _ _ (by decide)) <| bind_ok (Arm.rounds4C_eq _ _ _ _ (by decide)) <|
  bind_ok (Arm.rounds4C_eq _ _ _ _ (by decide)) <| bind_ok (Arm.rounds4C_eq _ _ _ _ (by decide)) <|
  bind_ok (loop_fold' (fun v i => Arm.body v (16 + 16 * i)) fun i v hi => Arm.bodyC_eq a v (16 + 16 * i) (by omega)) rfl

theorem Arm.compressC_eq (k a : Nat) (s : V8 W32) (blks : List Obj) (hb : ∀ o ∈ blks, o.data.length = 64) :
    Arm.compressC k a s blks = some (Arm.compress s (blks.map Obj.data)) := by
  have hs := length_stateObj a s
  refine bind_ok (loadSlice_le (by decide) (by omega) (by decide)) <| bind_ok (loadSlice_le (by decide) (by omega) (by decide)) <|
    bind_ok (foldlM_blocks (Arm.digestBlockC_eq k) blks hb _) <|
    bind_ok (storeSlice_le (by decide) (by omega) (by decide)) <|
    bind_ok (storeSlice_le (by decide) (Nat.le_of_eq (length_stored hs _).symm) (by decide)) ?_
  show some (V8.ofFn (wordLE 32 _)) = _
  rw [show 4 * 0 = 0 from rfl, show 4 * 4 = 16 from rfl, stored hs]
  rfl

end Sha256

namespace Sha512

theorem length_stateObj (a : Nat) (s : V8 W64) : (stateObj a s).data.length = 64 := length_bytesOfWordsLE _
theorem length_kObj (a : Nat) : (kObj a).data.length = 640 := (length_bytesOfWordsLE _).trans (by decide)

theorem Arm.rounds2C_eq (a : Nat) (ab cd ef gh w : V128) (t : Nat) (h : t ≤ 78) :
    Arm.rounds2C (kObj a) ab cd ef gh w t = some (Arm.rounds2 ab cd ef gh w t) :=
  bind_ok ((loadElem_le (by decide) (by rw [length_kObj]; omega)).trans (congrArg some (load_words K64 t))) rfl

theorem Arm.rounds8C_eq (k : Nat) (r : Arm.Regs) (a b c d : V128) (t : Nat) (h : t ≤ 72) :
    Arm.rounds8C (kObj k) r a b c d t = some (Arm.rounds8 r a b c d t) := by
  obtain ⟨ab, cd, ef, gh⟩ := r
  exact bind_ok (Arm.rounds2C_eq _ _ _ _ _ _ _ (by omega)) <| bind_ok (Arm.rounds2C_eq _ _ _ _ _ _ _ (by omega)) <|
    bind_ok (Arm.rounds2C_eq _ _ _ _ _ _ _ (by omega)) <| bind_ok (Arm.rounds2C_eq _ _ _ _ _ _ _ (by omega)) rfl

theorem Arm.bodyC_eq (k : Nat) (v : Arm.Regs × V8 V128) (t : Nat) (h : t ≤ 64) : Arm.bodyC (kObj k) v t = some (Arm.body v t) := by
  obtain ⟨⟨ab, cd, ef, gh⟩, ⟨s0, s1, s2, s3, s4, s5, s6, s7⟩⟩ := v
  exact bind_ok (Arm.rounds2C_eq _ _ _ _ _ _ _ (by omega)) <| bind_ok (Arm.rounds2C_eq _ _ _ _ _ _ _ (by omega)) <|
    bind_ok (Arm.rounds2C_eq _ _ _ _ _ _ _ (by omega)) <| bind_ok (Arm.rounds2C_eq _ _ _ _ _ _ _ (by omega)) <|
    bind_ok (Arm.rounds2C_eq _ _ _ _ _ _ _ (by omega)) <| bind_ok (Arm.rounds2C_eq _ _ _ _ _ _ _ (by omega)) <|
    bind_ok (Arm.rounds2C_eq _ _ _ _ _ _ _ (by omega)) <| bind_ok (Arm.rounds2C_eq _ _ _ _ _ _ _ (by omega)) rfl

theorem Arm.steps (v : Arm.Regs × V8 V128) :
    (List.range 4).foldl (fun v i => Arm.body v (16 + 16 * i)) v = [16, 32, 48, 64].foldl Arm.body v := by
  rw [show List.range 4 = [0, 1, 2, 3] from rfl]
  simp only [List.foldl_cons, List.foldl_nil]

theorem Arm.loadBlock {o : Obj} (h : o.data.length = 128) (i : Nat) (hi : i < 8) :
    o.loadSlice 1 (16 * i) (16 * i + 16) = some (Simd.load o.data (16 * i)) := by
  have := loadSlice_le (o := o) (k := 1) (i := 16 * i) (j := 16 * i + 16) (by omega) (by omega) (by omega)
  rwa [Nat.one_mul] at this

theorem Arm.digestBlockC_eq (k : Nat) (r : Arm.Regs) (o : Obj) (h : o.data.length = 128) :
    Arm.digestBlockC (kObj k) r o = some (Arm.digestBlock r o.data) := by
  refine bind_ok (Arm.loadBlock h 0 (by decide)) <| bind_ok (Arm.loadBlock h 1 (by decide)) <|
    bind_ok (Arm.loadBlock h 2 (by decide)) <| bind_ok (Arm.loadBlock h 3 (by decide)) <| bind_ok (Arm.loadBlock h 4 (by decide)) <|
    bind_ok (Arm.loadBlock h 5 (by decide)) <| bind_ok (Arm.loadBlock h 6 (by decide)) <| bind_ok (Arm.loadBlock h 7 (by decide)) ?_
  unfold Arm.digestBlock
  generalize hs : (V8.ofFn fun i => Hashes.Arm.vrev64q_u8 (Simd.load o.data (16 * i))) = s
  have e0 : Hashes.Arm.vrev64q_u8 (Simd.load o.data (16 * 0)) = s.x0 := by rw [← hs]; rfl
  have e1 : Hashes.Arm.vrev64q_u8 (Simd.load o.data (16 * 1)) = s.x1 := by rw [← hs]; rfl
  have e2 : Hashes.Arm.vrev64q_u8 (Simd.load o.data (16 * 2)) = s.x2 := by rw [← hs]; rfl
  have e3 : Hashes.Arm.vrev64q_u8 (Simd.load o.data (16 * 3)) = s.x3 := by rw [← hs]; rfl
  have e4 : Hashes.Arm.vrev64q_u8 (Simd.load o.data (16 * 4)) = s.x4 := by rw [← hs]; rfl
  have e5 : Hashes.Arm.vrev64q_u8 (Simd.load o.data (16 * 5)) = s.x5 := by rw [← hs]; rfl
  have e6 : Hashes.Arm.vrev64q_u8 (Simd.load o.data (16 * 6)) = s.x6 := by rw [← hs]; rfl
  have e7 : Hashes.Arm.vrev64q_u8 (Simd.load o.data (16 * 7)) = s.x7 := by rw [← hs]; rfl
  rw [e0, e1, e2, e3, e4, e5, e6, e7]
  obtain ⟨s0, s1, s2, s3, s4, s5, s6, s7⟩ := s
  refine bind_ok (Arm.rounds8C_eq _ _ _ _ _ _ _ (by decide)) <| bind_ok (Arm.rounds8C_eq _ _ _ _ _ _ _ (by decide)) <|
    bind_ok (loop_fold' (fun v i => Arm.body v (16 + 16 * i)) fun i v hi => Arm.bodyC_eq k v (16 + 16 * i) (by omega)) ?_
  rw [Arm.steps]
  rfl

/-- Four stores fill the state. -/
theorem Arm.storeStateC_eq {o : Obj} (h : o.data.length = 64) (r : Arm.Regs) :
    Arm.storeStateC o r = some ⟨o.addr, Simd.store r.x0 ++ Simd.store r.x1 ++ Simd.store r.x2 ++ Simd.store r.x3⟩ := by
  obtain ⟨ad, d⟩ := o
  obtain ⟨a, b, c, e⟩ := r
  simp only at h
  refine bind_ok (v := ⟨ad, Simd.store a ++ d.drop 16⟩) (storeSlice_le (by decide) (by simp only; omega) (by decide)) ?_
  refine bind_ok (v := ⟨ad, Simd.store a ++ Simd.store b ++ d.drop 32⟩)
    ((storeSlice_le (by decide) (by simp [length_store, h]) (by decide)).trans ?_) ?_
  · exact congrArg (fun d => some (⟨ad, d⟩ : Obj)) (store_next (length_store a))
  refine bind_ok (v := ⟨ad, Simd.store a ++ Simd.store b ++ Simd.store c ++ d.drop 48⟩)
    ((storeSlice_le (by decide) (by simp [length_store, h]) (by decide)).trans ?_) ?_
  · exact congrArg (fun d => some (⟨ad, d⟩ : Obj)) (store_next (n := 32) rfl)
  refine ((storeSlice_le (by decide) (by simp [length_store, h]) (by decide)).trans ?_)
  refine congrArg (fun d => some (⟨ad, d⟩ : Obj)) ((store_next (n := 48) rfl).trans ?_)
  rw [List.drop_of_length_le (by omega), List.append_nil]

theorem Arm.compressC_eq (k a : Nat) (s : V8 W64) (blks : List Obj) (hb : ∀ o ∈ blks, o.data.length = 128) :
    Arm.compressC k a s blks = some (Arm.compress s (blks.map Obj.data)) := by
  have hs := length_stateObj a s
  refine bind_ok (loadSlice_le (by decide) (by omega) (by decide)) <| bind_ok (loadSlice_le (by decide) (by omega) (by decide)) <|
    bind_ok (loadSlice_le (by decide) (by omega) (by decide)) <| bind_ok (loadSlice_le (by decide) (by omega) (by decide)) <|
    bind_ok (foldlM_blocks (Arm.digestBlockC_eq k) blks hb _) <|
    bind_ok (Arm.storeStateC_eq hs _) rfl

end Sha512
end Hashes
