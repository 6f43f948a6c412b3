import Verif.Proof.Rust
import Verif.Proof.Words
import Verif.Checked.Skein
/- The checked transcription of Skein equals the model: C60. -/
namespace Hashes.Skein
open Rs
variable {n : Nat}

/-- The cipher on lists does what the cipher on arrays does. -/
def IsCipher (E : CipherC) (E' : Cipher n) : Prop := ∀ k t x, E k.toList t x.toList = (E' k t x).toList

def State.toC (s : State n) : StateC := ⟨s.t0, s.t1, s.x.toList⟩

variable {E : CipherC} {E' : Cipher n}

theorem processBlockC_eq (hE : IsCipher E E') (s : State n) {block : Bytes} (hb : block.length = 8 * n) {k : Nat}
    (ht : s.t0.toNat + k < 2 ^ 64) : processBlockC E n s.toC block k = some (processBlock E' s block k).toC := by
  have e1 : add s.t0 (BitVec.ofNat 64 k) = some (s.t0 + BitVec.ofNat 64 k) :=
    if_pos (by simp only [BitVec.toNat_ofNat]; rw [Nat.mod_eq_of_lt (by omega)]; exact ht)
  have e2 : load (List.replicate n 0) block 8 (fromLe 64) = some (Arr.ofFn n (wordLE 64 block) : Arr 64 n).toList :=
    load_le (w := 64) (n := n) (by decide) (List.length_replicate ..) hb
  refine bind_ok e1 <| bind_ok e2 ?_
  have e3 := hE s.x (s.t0 + BitVec.ofNat 64 k, s.t1) (Arr.ofFn n (wordLE 64 block))
  refine bind_ok (v := (Arr.ofFn n fun i => (Arr.ofFn n (wordLE 64 block) : Arr 64 n).get i ^^^
    (E' s.x (s.t0 + BitVec.ofNat 64 k, s.t1) (Arr.ofFn n (wordLE 64 block))).get i : Arr 64 n).toList) ?_ rfl
  refine (loop_fill _ (by simp [State.toC]) fun i l hi hl => ?_)
  simp only [State.toC, e3]
  exact bind_ok (idx_arr _ hi) <| bind_ok (idx_arr _ hi) (upd_lt (by omega))

/-- `store` into a buffer that may end in a part of a chunk. -/
theorem store_part {α β : Type} {m k : Nat} {a : List α} {b : List β} {conv : α → List β} (hb : b.length / k = m) (hk : 0 < k) (ha : m ≤ a.length)
    (h : ∀ x, (conv x).length = k) : store b a k conv = some ((a.take m).flatMap conv ++ b.drop (k * m)) := by
  have key : ∀ (m : Nat) (i : Nat) (pre : List β) (r : List α) (c post : List β), m ≤ r.length → pre.length = k * i →
      k * m ≤ post.length →
      ((blocks k m c).zip r).foldlM (fun (s : List β × Nat) (p : List β × α) => do
        let b ← copy s.1 (k * s.2) (k * s.2 + k) (conv p.2)
        pure (b, s.2 + 1)) (pre ++ post, i) = some (pre ++ ((r.take m).flatMap conv ++ post.drop (k * m)), i + m) := by
    intro m
    induction m with
    | zero => intro i pre r c post _ _ _; rfl
    | succ m ih =>
      intro i pre r c post hr hp hc
      cases r with
      | nil => simp at hr
      | cons x r =>
        have hkm : k * (m + 1) = k * m + k := Nat.mul_succ _ _
        simp only [blocks, List.zip_cons_cons, List.foldlM_cons]
        rw [copy_le (by omega) (by simp; omega) (by rw [h]; omega)]
        have e1 : (pre ++ post).take (k * i) = pre := by rw [← hp]; simp
        have e2 : (pre ++ post).drop (k * i + k) = post.drop k := by
          rw [← hp, List.drop_append, List.drop_eq_nil_of_le (by omega), List.nil_append]
          congr 1; omega
        rw [e1, e2]
        have := ih (i + 1) (pre ++ conv x) r (c.drop k) (post.drop k) (by simpa using hr)
          (by rw [List.length_append, h, hp, Nat.mul_succ]) (by rw [List.length_drop]; omega)
        show List.foldlM _ (pre ++ conv x ++ post.drop k, i + 1) _ = _
        rw [this, List.drop_drop, hkm, Nat.add_comm (k * m) k]
        simp only [List.take_succ_cons, List.flatMap_cons, List.append_assoc]
        rw [show i + 1 + m = i + (m + 1) by omega]
  have := key m 0 [] a b b ha (by simp) (by rw [← hb]; exact Nat.mul_div_le _ _)
  rw [store, chunks, hb]
  rw [List.nil_append] at this
  rw [this]; rfl

theorem take_bytes (l : List W64) (k : Nat) : (bytesOfWordsLE l).take (8 * k) = (l.take k).flatMap fun y => leBytes 8 y.toNat := by
  induction l generalizing k with
  | nil => simp [bytesOfWordsLE]
  | cons y l ih =>
    cases k with
    | zero => rfl
    | succ k =>
      have e : bytesOfWordsLE (y :: l) = leBytes 8 y.toNat ++ bytesOfWordsLE l := rfl
      rw [e, List.take_succ_cons, List.flatMap_cons, ← ih, List.take_append, List.take_of_length_le (by simp; omega)]
      simp only [length_leBytes]
      rw [show 8 * (k + 1) - 8 = 8 * k by omega]

theorem outChunkC_eq (hE : IsCipher E E') (hn : 0 < n) (x : Arr 64 n) {block : Bytes} (hb : ∃ p : Bytes, p.length = 8 ∧ block = p ++ List.replicate (8 * n - 8) 0)
    {i : Nat} (hi : i < 2 ^ 64) {chunk : Bytes} (hc : chunk.length ≤ 8 * n) :
    outChunkC E n x.toList block i chunk = some (leBytes 8 i ++ List.replicate (8 * n - 8) 0, outChunk E' x i chunk) := by
  obtain ⟨p, hp, rfl⟩ := hb
  have e1 : copy (p ++ List.replicate (8 * n - 8) 0) 0 8 (leBytes 8 (BitVec.ofNat 64 i).toNat) = some (leBytes 8 i ++ List.replicate (8 * n - 8) 0) := by
    rw [copy_le (by omega) (by simp; omega) (by simp), List.drop_left' hp, BitVec.toNat_ofNat, Nat.mod_eq_of_lt hi]
    rfl
  refine bind_ok e1 <| bind_ok (processBlockC_eq hE (blankState (T1_FLAG_FIRST ||| T1_BLK_TYPE_OUT ||| T1_FLAG_FINAL) x) (by simp; omega)
    (show 0 + 8 < 2 ^ 64 by decide)) ?_
  refine bind_ok (store_part rfl (by decide) ?_ (by simp)) ?_
  · simp [State.toC]; omega
  · unfold outChunk
    extract_lets flag ctr block' ctr' k
    show some _ = some _
    congr 2
    show ((ctr'.x.toList.take k).flatMap _) ++ _ = (bytesOfWordsLE ctr'.x.toList).take (8 * k) ++ _
    congr 1
    exact (take_bytes _ _).symm

theorem outLoopC_eq (hE : IsCipher E E') (hn : 0 < n) (x : Arr 64 n) (l : List Bytes) (hl : ∀ c ∈ l, c.length ≤ 8 * n) {block : Bytes}
    (hb : ∃ p : Bytes, p.length = 8 ∧ block = p ++ List.replicate (8 * n - 8) 0) {i : Nat} (hi : i + l.length ≤ 2 ^ 64) :
    outLoopC E n x.toList block i l = some ((l.zipIdx i).map fun p => outChunk E' x p.2 p.1) := by
  induction l generalizing block i with
  | nil => rfl
  | cons c l ih =>
    rw [List.length_cons] at hi
    refine bind_ok (outChunkC_eq hE hn x hb (by omega) (hl c List.mem_cons_self)) <|
      bind_ok (ih (fun d hd => hl d (List.mem_cons_of_mem _ hd)) ⟨_, by simp, rfl⟩ (by omega)) ?_
    rfl

theorem finalizeC_eq (hE : IsCipher E E') (hn : 0 < n) (s : State n) {buffer : BlockBuffer} (hd : buffer.data.length = 8 * n) (hp : buffer.pos ≤ 8 * n)
    (ht : s.t0.toNat + buffer.pos < 2 ^ 64) {out : Bytes} (ho : out.length < 2 ^ 64) :
    finalizeC E n s.toC buffer out = some (finalizeInto E' s buffer out) := by
  have lb : (buffer.padWithZeros (8 * n)).1.length = 8 * n := by simp [BlockBuffer.padWithZeros]; omega
  refine bind_ok (processBlockC_eq hE { s with t1 := s.t1 ||| T1_FLAG_FINAL } lb ht) ?_
  refine bind_ok (outLoopC_eq hE hn _ _ ?_ ⟨List.replicate 8 0, by simp, ?_⟩ ?_) ?_
  · intro c hc
    obtain ⟨i, -, rfl⟩ := List.mem_map.mp hc
    rw [List.length_take]; omega
  · rw [List.replicate_append_replicate]; congr 1; omega
  · simp only [chunksMut, List.length_map, List.length_range, Nat.zero_add]
    have h8 : 0 < 8 * n := by omega
    refine Nat.le_of_lt_succ ((Nat.div_lt_iff_lt_mul h8).mpr ?_)
    have : 2 ^ 64 * 1 ≤ 2 ^ 64 * (8 * n) := Nat.mul_le_mul_left _ h8
    rw [Nat.succ_mul]
    omega
  · unfold finalizeInto
    show some _ = some _
    congr 1
    rw [chunksMut, List.flatMap_def]
    congr 1
    apply List.ext_getElem
    · simp
    · intro i h1 h2
      simp

theorem drop_pad {p : Bytes} {m j : Nat} (h : p.length ≤ j) :
    (p ++ List.replicate m (0 : Byte)).drop j = List.replicate (m - (j - p.length)) 0 := by
  rw [List.drop_append, List.drop_eq_nil_of_le h, List.nil_append, List.drop_replicate]

theorem initC_eq (hE : IsCipher E E') (hn : 4 ≤ n) {N : Nat} (hN : N * 8 < 2 ^ 64) : initC E n N = some (init E' N).toC := by
  have z : ∀ k, (List.replicate (8 * n) (0 : Byte)).drop k = List.replicate (8 * n - k) 0 := fun k => List.drop_replicate ..
  have e1 : copy (List.replicate (8 * n) 0) 0 8 (leBytes 8 SCHEMA_VER.toNat) =
      some (leBytes 8 SCHEMA_VER.toNat ++ List.replicate (8 * n - 8) 0) := by
    rw [copy_le (by omega) (by simp; omega) (by simp), z]; rfl
  have e2 : mul (BitVec.ofNat 64 N) 8 = some (BitVec.ofNat 64 (N * 8)) := by
    rw [mul, if_pos]
    · congr 1
      apply BitVec.eq_of_toNat_eq
      simp
    · simp; omega
  have e3 : copy (leBytes 8 SCHEMA_VER.toNat ++ List.replicate (8 * n - 8) 0) 8 16 (leBytes 8 (BitVec.ofNat 64 (N * 8)).toNat) =
      some (leBytes 8 SCHEMA_VER.toNat ++ leBytes 8 (N * 8) ++ List.replicate (8 * n - 16) 0) := by
    rw [copy_le (by omega) (by simp; omega) (by simp), List.take_left' (by simp), BitVec.toNat_ofNat, Nat.mod_eq_of_lt hN, drop_pad (by simp)]
    simp only [length_leBytes]
    congr 3
  have e4 : copy (leBytes 8 SCHEMA_VER.toNat ++ leBytes 8 (N * 8) ++ List.replicate (8 * n - 16) 0) 16 24 (leBytes 8 0) =
      some (leBytes 8 SCHEMA_VER.toNat ++ leBytes 8 (N * 8) ++ leBytes 8 0 ++ List.replicate (8 * n - 24) 0) := by
    rw [copy_le (by omega) (by simp; omega) (by simp), List.take_left' (by simp), drop_pad (by simp)]
    simp only [length_leBytes, List.length_append]
    congr 3
  have z0 : (List.replicate n 0 : List W64) = (Arr.ofFn n fun _ => 0 : Arr 64 n).toList := by
    show _ = (List.range n).map _
    rw [List.map_const', List.length_range]
  refine bind_ok e1 <| bind_ok e2 <| bind_ok e3 <| bind_ok e4 ?_
  rw [z0]
  exact bind_ok (processBlockC_eq hE (blankState (T1_FLAG_FIRST ||| T1_BLK_TYPE_CFG ||| T1_FLAG_FINAL) (Arr.ofFn n fun _ => 0)) (by simp; omega)
    (show 0 + 32 < 2 ^ 64 by decide)) rfl

end Hashes.Skein
