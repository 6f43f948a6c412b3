import Verif.Model.Tiger
import Verif.Spec.Tiger
import Verif.Proof.TigerGen
import Verif.Proof.Md
import Verif.Proof.Words
/- Helper lemmas: the modelled Tiger equals the designers' definition. -/
namespace Hashes
namespace Tiger

/-- Tables as the specification's S-box function. -/
def tab (T : List (List W64)) (k v : Nat) : W64 := (T.getD k []).getD v 0

theorem getD_leBytes (n x i : Nat) (hi : i < n) : ((leBytes n x).getD i 0).toNat = x / 2 ^ (8 * i) % 256 := by
  induction n generalizing x i with
  | zero => omega
  | succ n ih =>
    cases i with
    | zero => simp [leBytes]
    | succ i =>
      rw [leBytes, List.getD_cons_succ, ih _ _ (by omega), Nat.div_div_eq_div_mul]
      rw [show 256 * 2 ^ (8 * i) = 2 ^ (8 * (i + 1)) by rw [Nat.mul_add, Nat.pow_add]; omega]

/-- Registers as the specification's triple. -/
def V3.regs (v : V3) : Spec.Tiger.Regs := (v.x0, v.x1, v.x2)

theorem look_eq (T : List (List W64)) (i : Nat) (c : W64) (j : Nat) (hj : j < 8) :
    look T i (leBytes 8 c.toNat) j = tab T i (Spec.Tiger.byteOf c j) := by
  rw [look, getD_leBytes _ _ _ hj]; rfl

theorem round_eq (T : List (List W64)) (a b c x : W64) (mul : Nat) :
    (round T a b c x (BitVec.ofNat 64 mul)).regs = Spec.Tiger.round (tab T) (a, b, c) x mul := by
  simp only [round, V3.regs, Spec.Tiger.round]
  rw [look_eq _ _ _ _ (by decide), look_eq _ _ _ _ (by decide), look_eq _ _ _ _ (by decide),
    look_eq _ _ _ _ (by decide), look_eq _ _ _ _ (by decide), look_eq _ _ _ _ (by decide),
    look_eq _ _ _ _ (by decide), look_eq _ _ _ _ (by decide)]

theorem round_rot (T : List (List W64)) (a b c x : W64) (mul : Nat) :
    Spec.Tiger.rot (Spec.Tiger.round (tab T) (a, b, c) x mul) =
      ((round T a b c x (BitVec.ofNat 64 mul)).x1, (round T a b c x (BitVec.ofNat 64 mul)).x2,
       (round T a b c x (BitVec.ofNat 64 mul)).x0) := by
  rw [← round_eq]; rfl

theorem pass_eq (T : List (List W64)) (a b c : W64) (x : V8 W64) (mul : Nat) :
    Spec.Tiger.pass (tab T) mul x.toList (a, b, c) =
      ((pass T a b c x (BitVec.ofNat 64 mul)).x2, (pass T a b c x (BitVec.ofNat 64 mul)).x0,
       (pass T a b c x (BitVec.ofNat 64 mul)).x1) := by
  simp only [Spec.Tiger.pass, V8.toList, List.foldl_cons, List.foldl_nil, round_rot]
  rfl

theorem keySchedule_eq (x : V8 W64) : Spec.Tiger.keySchedule x.toList = (keySchedule x).toList := by
  obtain ⟨a, b, c, d, e, f, g, h⟩ := x
  rw [Spec.Tiger.keySchedule, show List.range 16 = [0,1,2,3,4,5,6,7,8,9,10,11,12,13,14,15] from rfl]
  simp only [List.foldl_cons, List.foldl_nil, V8.toList, Spec.Tiger.keyStep, Nat.reduceMod, Nat.reduceAdd,
    List.getD_cons_zero, List.getD_cons_succ, List.set_cons_zero, List.set_cons_succ, Nat.reduceEqDiff, if_true, if_false,
    keySchedule]

theorem compress_eq (T : List (List W64)) (s : V3) (block : Bytes) :
    (compress T s block).regs = Spec.Tiger.compress (tab T) s.regs block := by
  have hx : (List.range 8).map (wordLE 64 block) = (V8.ofFn (wordLE 64 block)).toList := rfl
  simp only [Spec.Tiger.compress, V3.regs, hx, keySchedule_eq, pass_eq, compress]
  rw [BitVec.xor_comm]
  rfl

theorem foldl_compress (T : List (List W64)) (l : List Bytes) (s : V3) :
    (l.foldl (compress T) s).regs = l.foldl (Spec.Tiger.compress (tab T)) s.regs := by
  induction l generalizing s with
  | nil => rfl
  | cons x l ih => rw [List.foldl_cons, List.foldl_cons, ih, compress_eq]

theorem lawful (T : List (List W64)) (v : Bool) : (core T v).Lawful (fun _ => True) where
  bs_pos := by simp [core]
  nil := fun s => by simp [core, updateBlocks]
  app := fun s x y => by simp [core, updateBlocks, BitVec.ofNat_add, BitVec.add_assoc]
  inv_init := trivial
  inv_update := fun _ _ _ _ => trivial
  reset_eq := fun _ _ => rfl
  fin_congr := fun s b b' h h' hc => by
    simp only [core, finalize, BlockBuffer.len64PaddingLE]
    rw [pos_congr h h' hc, digestPad_congr (bs := 64) h h' hc (by simp), digestPad_congr (bs := 64) h h' hc (by simp)]

theorem serLawful (T : List (List W64)) (v : Bool) : (core T v).SerLawful (fun _ => True) where
  bs_le := by simp [core]
  len := fun s _ => by simp [core, serialize, length_bytesOfWordsLE, V3.toList]
  round := fun s _ => by
    simp only [core, serialize, deserialize]
    rw [if_pos (by simp [length_bytesOfWordsLE, V3.toList])]
    have h : ∀ i (hi : i < 3), wordLE 64 (bytesOfWordsLE s.state.toList ++ leBytes 8 s.blockLen.toNat) i =
      s.state.toList.getD i 0 := fun i hi => wordLE_append (by decide) _ _ _ (by simpa [V3.toList] using hi)
    rw [List.drop_left' (by simp [length_bytesOfWordsLE, V3.toList]), counter_round (by decide)]
    simp only [h 0 (by decide), h 1 (by decide), h 2 (by decide)]
    rfl

theorem deserLawful (T : List (List W64)) (v : Bool) : (core T v).DeserLawful where
  canon := fun raw s h => by
    simp only [core, deserialize, serialize] at h ⊢
    split at h
    · rename_i hl
      injection h with h
      subst h
      have : V3.toList ⟨wordLE 64 raw 0, wordLE 64 raw 1, wordLE 64 raw 2⟩ = (List.range 3).map (wordLE 64 raw) := rfl
      rw [this, bytesOfWordsLE_range (by decide) _ _ (by omega), counter_canon (by decide) (by simp [hl])]
      simp
    · cases h

theorem digest_eq (T : List (List W64)) (v : Bool) (m : Bytes) :
    (core T v).digest m = Spec.Tiger.hash (tab T) (if v then 0x80 else 0x01) m := by
  obtain ⟨b, h1, h2, h3, h4⟩ := Core.digest_eager (lawful T v) rfl m
  rw [h4]
  simp only [core] at h1 h2 h3 ⊢
  simp only [finalize, updateBlocks, BlockBuffer.len64PaddingLE, List.foldl_cons,
    List.foldl_nil, length_blocks, h3, init]
  rw [show (64 : W64) = BitVec.ofNat 64 64 from rfl, bitLen_eq, leBytes_counter (by decide)]
  rw [Spec.Tiger.hash]
  have e : ∀ d : Byte, b.digestPad 64 d (leBytes 8 (8 * m.length)) (compress T)
      ((blocks 64 (m.length / 64) m).foldl (compress T) S0) =
      (chunks 64 (Spec.mdPad 64 d (leBytes 8 (8 * m.length)) m)).foldl (compress T) S0 := fun d =>
    md_finalize (by decide) h1 (by simp) _ _ m h2
  cases v
  all_goals
    simp only [if_true, if_false, Bool.false_eq_true]
    first
    | rw [e 1]
    | rw [e 0x80]
    rw [show Spec.Tiger.IV = S0.regs from rfl, ← foldl_compress]
    rfl

/-- Agreement of the tables with generated S-boxes. -/
def agree (b : Spec.Tiger.Gen.Boxes) : Prop :=
  ∀ k < 4, ∀ v < 256, tab TABLES k v = BitVec.ofNat 64 (Spec.Tiger.Gen.entry (b.pick k) v)

instance (b : Spec.Tiger.Gen.Boxes) : Decidable (agree b) := by unfold agree; infer_instance

theorem agree_st5 : agree Spec.Tiger.Gen.st5.t := by decide +kernel

theorem agree_boxes : agree Spec.Tiger.Gen.boxes := Spec.Tiger.Gen.boxes_eq.symm.subst (motive := agree) agree_st5

/-- `tables.bin` is what the designers' generator produces. -/
theorem tables_eq (k : Nat) (hk : k < 4) (v : Nat) (hv : v < 256) : tab TABLES k v = Spec.Tiger.Gen.sbox k v :=
  agree_boxes k hk v hv

/-- The hash only uses table entries `k < 4`, `v < 256`. -/
theorem hash_congr {t t' : Nat → Nat → W64} (h : ∀ k < 4, ∀ v < 256, t k v = t' k v) (d : Byte) (m : Bytes) :
    Spec.Tiger.hash t d m = Spec.Tiger.hash t' d m := by
  have hr : Spec.Tiger.round t = Spec.Tiger.round t' := by
    funext ⟨a, b, c⟩ x mul
    have hb : ∀ (c : W64) i, Spec.Tiger.byteOf c i < 256 := fun c i => Nat.mod_lt _ (by decide)
    simp only [Spec.Tiger.round, h 0 (by decide) _ (hb _ _), h 1 (by decide) _ (hb _ _), h 2 (by decide) _ (hb _ _),
      h 3 (by decide) _ (hb _ _)]
  have hp : Spec.Tiger.pass t = Spec.Tiger.pass t' := by
    funext mul x r; simp only [Spec.Tiger.pass, hr]
  have hc : Spec.Tiger.compress t = Spec.Tiger.compress t' := by
    funext s b; simp only [Spec.Tiger.compress, hp]
  simp only [Spec.Tiger.hash, hc]

theorem tiger_digest_eq (m : Bytes) : tiger.digest m = Spec.Tiger.hash Spec.Tiger.Gen.sbox 0x01 m := by
  rw [tiger, digest_eq, hash_congr tables_eq]; rfl

theorem tiger2_digest_eq (m : Bytes) : tiger2.digest m = Spec.Tiger.hash Spec.Tiger.Gen.sbox 0x80 m := by
  rw [tiger2, digest_eq, hash_congr tables_eq]; rfl

end Tiger
end Hashes
