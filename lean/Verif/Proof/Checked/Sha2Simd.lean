import Verif.Checked.Sha2Simd
import Verif.Proof.Raw
/- AVX2 and WebAssembly SHA-2: no pointer leaves its object, no index its array. -/
namespace Hashes.Sha2Simd
open Rs Raw

theorem updA_lt {w n : Nat} {a : Arr w n} {i : Nat} {v : BitVec w} (h : i < n) : updA a i v = some (a.set i v) := if_pos h

theorem all8_eq {α : Type} {f : Nat → Option α} (g : Nat → α) (h : ∀ i < 8, f i = some (g i)) : all8 f = some (V8.ofFn g) :=
  bind_ok (h 0 (by decide)) <| bind_ok (h 1 (by decide)) <| bind_ok (h 2 (by decide)) <| bind_ok (h 3 (by decide)) <|
  bind_ok (h 4 (by decide)) <| bind_ok (h 5 (by decide)) <| bind_ok (h 6 (by decide)) <| bind_ok (h 7 (by decide)) rfl

theorem all4_eq {α : Type} {f : Nat → Option α} (g : Nat → α) (h : ∀ i < 4, f i = some (g i)) : all4 f = some (V4.ofFn g) :=
  bind_ok (h 0 (by decide)) <| bind_ok (h 1 (by decide)) <| bind_ok (h 2 (by decide)) <| bind_ok (h 3 (by decide)) rfl

theorem wordC_eq {w L n : Nat} {ms : Arr 128 n} {i : Nat} (h : i / L < n) : wordC w L ms i = some (word w L ms i) :=
  bind_ok (if_pos h) rfl

theorem roundsRegC_eq {w n : Nat} (S0 S1 : BitVec w → BitVec w) {L : Nat} (ms : Arr 128 n) {j : Nat} (hj : j < n) (s : V8 (BitVec w)) :
    roundsRegC S0 S1 L ms j s = some (roundsReg S0 S1 L ms j s) :=
  loop_fold' _ fun l _ hl => bind_ok (wordC_eq (by
    rw [Nat.mul_add_div (by omega), Nat.div_eq_of_lt hl]; exact hj)) rfl

/-- Loading from the table. -/
theorem loadK {w : Nat} {K : List (BitVec w)} {a i : Nat} (h : w / 8 * i + 16 ≤ w / 8 * K.length) :
    (tableObj a K).loadAt (w / 8) i = some (ldK K i) :=
  (loadAt_le (Nat.le_trans h (Nat.le_of_eq (Raw.length_bytesOfWordsLE K).symm))).trans (congrArg some (load_words K i))

/-- What the loops need from the parameters: a register is `L` words, and the table has 16 words for every group. -/
structure Fits {w : Nat} {X : Type} (o : Ops w X) : Prop where
  reg : w / 8 * o.L = 16
  len : o.L * (16 / o.L) = 16
  table : o.K.length = 16 * (o.groups + 1)

theorem bodyC_eq {w : Nat} {X : Type} {o : Ops w X} (f : Fits o) (a : Nat) (v : St w o.L X) (j : Nat) (hj : j < 16 / o.L)
    (hi : v.idx + o.L ≤ o.K.length) : bodyC (tableObj a o.K) o v j = some (body o v j) := by
  refine bind_ok (loadK ?_) <| bind_ok (roundsRegC_eq _ _ _ hj _) <| bind_ok (updA_lt hj) rfl
  have := Nat.mul_le_mul_left (w / 8) hi
  rwa [Nat.mul_add, f.reg] at this

theorem mainLoopC_eq {w : Nat} {X : Type} {o : Ops w X} (f : Fits o) (a : Nat) (v : St w o.L X) (h : v.idx = 16) :
    mainLoopC (tableObj a o.K) o v = some (mainLoop o v) := by
  refine (loop_inv (I := fun i (v : St w o.L X) => v.idx = 16 * (i + 1)) _ h ?_).1
  intro i t hi ht
  have hL : 0 < o.L := by
    rcases Nat.eq_zero_or_pos o.L with h0 | h0
    · have := f.reg
      rw [h0] at this
      omega
    · exact h0
  have key := loop_inv (n := 16 / o.L) (s := t) (f := bodyC (tableObj a o.K) o) (body o)
    (fun j v => v.idx = 16 * (i + 1) + o.L * j) ht (fun j u hj hu => ⟨bodyC_eq f a u j hj (by
      have h1 : o.L * (j + 1) ≤ o.L * (16 / o.L) := Nat.mul_le_mul_left _ hj
      rw [f.len, Nat.mul_succ] at h1
      rw [hu, f.table]
      have : i + 1 + 1 ≤ o.groups + 1 := by omega
      have := Nat.mul_le_mul_left 16 this
      omega), by
      show u.idx + o.L = _
      rw [hu, Nat.mul_succ o.L j, Nat.add_assoc]⟩)
  refine ⟨key.1, ?_⟩
  rw [key.2, f.len]
  omega

theorem lastLoopC_eq {w L n : Nat} (S0 S1 : BitVec w → BitVec w) (ms : Arr 128 n) (h : L * n = 16) (s : V8 (BitVec w)) :
    lastLoopC S0 S1 L ms s = some (lastLoop S0 S1 L ms s) :=
  loop_fold' _ fun i _ hi => by
    rw [show (64 + i) % 16 = i by omega]
    exact bind_ok (wordC_eq (Nat.div_lt_of_lt_mul (by rwa [h]))) rfl

theorem accumulateC_eq {w : Nat} (dst src : V8 (BitVec w)) : accumulateC dst src = some (accumulate dst src) :=
  all8_eq (fun i => dst.get i + src.get i) fun _ hi => bind_ok (idx_v8 dst hi) <| bind_ok (idx_v8 src hi) rfl

theorem blockWithC_eq {w : Nat} {X : Type} {o : Ops w X} (f : Fits o) (a : Nat) (state : V8 (BitVec w)) (x : X)
    (ms : Arr 128 (16 / o.L)) : blockWithC (tableObj a o.K) o state x ms = some (blockWith o state x ms) :=
  bind_ok (mainLoopC_eq f a _ rfl) <| bind_ok (lastLoopC_eq _ _ _ f.len _) (accumulateC_eq _ _)

theorem fits512 : Fits wasmOps512 := ⟨by decide, by decide, by decide⟩
theorem fits256 : Fits wasmOps256 := ⟨by decide, by decide, by decide⟩
theorem fitsAvx : Fits avxOps := ⟨by decide, by decide, by decide⟩

theorem ofFn_get8 {α : Type} (g : Nat → α) {i : Nat} (h : i < 8) : (V8.ofFn g).get i = g i := by
  match i, h with
  | 0, _ | 1, _ | 2, _ | 3, _ | 4, _ | 5, _ | 6, _ | 7, _ => rfl

theorem ofFn_get4 {α : Type} (g : Nat → α) {i : Nat} (h : i < 4) : (V4.ofFn g).get i = g i := by
  match i, h with
  | 0, _ | 1, _ | 2, _ | 3, _ => rfl

theorem ofFn_congr {w n : Nat} {f g : Nat → BitVec w} (h : ∀ i < n, f i = g i) : Arr.ofFn n f = Arr.ofFn n g :=
  Subtype.ext (List.map_congr_left fun i hi => h i (List.mem_range.mp hi))

theorem k512 (a : Nat) (i : Nat) (h : i < 8) : (tableObj a Sha512.K64).loadAt 8 (2 * i) = some (ldK Sha512.K64 (2 * i)) :=
  loadK (w := 64) (by have : Sha512.K64.length = 80 := by decide
                      rw [this]; omega)

theorem k256 (a : Nat) (i : Nat) (h : i < 4) : (tableObj a Sha256.K32).loadAt 4 (4 * i) = some (ldK Sha256.K32 (4 * i)) :=
  loadK (w := 32) (by have : Sha256.K32.length = 64 := by decide
                      rw [this]; omega)

theorem wasmBlock512C_eq (a : Nat) (state : V8 W64) (o : Obj) (h : o.data.length = 128) :
    wasmBlock512C (tableObj a Sha512.K64) state o = some (wasmBlock512 state o.data) := by
  refine bind_ok (all8_eq _ fun i hi => bind_ok (loadAt_le (by omega)) rfl) <| bind_ok (all8_eq _ (k512 a)) ?_
  refine (blockWithC_eq fits512 a _ _ _).trans ?_
  unfold wasmBlock512
  rw [ofFn_congr fun i hi => congrArg _ (ofFn_get8 _ hi)]

theorem wasmBlock256C_eq (a : Nat) (state : V8 W32) (o : Obj) (h : o.data.length = 64) :
    wasmBlock256C (tableObj a Sha256.K32) state o = some (wasmBlock256 state o.data) := by
  refine bind_ok (all4_eq _ fun i hi => bind_ok (loadAt_le (by omega)) rfl) <| bind_ok (all4_eq _ (k256 a)) ?_
  refine (blockWithC_eq fits256 a _ _ _).trans ?_
  unfold wasmBlock256
  rw [ofFn_congr fun i hi => congrArg _ (ofFn_get4 _ hi)]

theorem avxBlockC_eq (a : Nat) (state : V8 W64) (o : Obj) (h : o.data.length = 128) :
    avxBlockC (tableObj a Sha512.K64) state o = some (avxBlock state o.data) := by
  refine bind_ok (all8_eq _ fun i hi => bind_ok (loadAt_le (by omega)) rfl) <| bind_ok (all8_eq _ (k512 a)) ?_
  refine (blockWithC_eq fitsAvx a _ _ _).trans ?_
  unfold avxBlock
  rw [ofFn_congr fun i hi => congrArg _ (ofFn_get8 _ hi)]

theorem wasm512C_eq (a : Nat) (s : V8 W64) (blks : List Obj) (hb : ∀ o ∈ blks, o.data.length = 128) :
    wasm512C a s blks = some (wasm512 s (blks.map Obj.data)) := foldlM_blocks (wasmBlock512C_eq a) blks hb s

theorem wasm256C_eq (a : Nat) (s : V8 W32) (blks : List Obj) (hb : ∀ o ∈ blks, o.data.length = 64) :
    wasm256C a s blks = some (wasm256 s (blks.map Obj.data)) := foldlM_blocks (wasmBlock256C_eq a) blks hb s

/-! ### AVX2 -/

theorem body2C_eq (a i : Nat) (hi : i < 5) (v : St2) (j : Nat) (hj : j < 8) (h : v.idx ≤ 78) :
    body2C (tableObj a Sha512.K64) i v j = some (body2 i v j) := by
  refine bind_ok (loadK (w := 64) ?_) <| bind_ok (roundsRegC_eq _ _ _ hj _) <| bind_ok (updA_lt hj) <| bind_ok (updA_lt (by omega)) rfl
  have : Sha512.K64.length = 80 := by decide
  rw [this]; omega

theorem mainLoop2C_eq (a : Nat) (v : St2) (h : v.idx = 16) : mainLoop2C (tableObj a Sha512.K64) v = some (mainLoop2 v) := by
  have := (loop_inv (n := 4) (s := v) (f := fun v i => loop 8 v (body2C (tableObj a Sha512.K64) (1 + i)))
    (fun v i => (List.range 8).foldl (body2 (1 + i)) v) (fun i v => v.idx = 16 * (i + 1)) h fun i t hi ht => by
      have key := loop_inv (n := 8) (s := t) (f := body2C (tableObj a Sha512.K64) (1 + i)) (body2 (1 + i))
        (fun j v => v.idx = 16 * (i + 1) + 2 * j) ht (fun j u hj hu => ⟨body2C_eq a _ (by omega) u j hj (by omega), by
          show u.idx + 2 = _
          omega⟩)
      exact ⟨key.1, by omega⟩).1
  refine this.trans ?_
  rw [show List.range 4 = [0, 1, 2, 3] from rfl]
  simp only [List.foldl_cons, List.foldl_nil, mainLoop2]

theorem fillC_eq {n : Nat} (h : 8 ≤ n) (a : Arr 128 n) {f : Nat → V128} (g : Nat → V128) (e : ∀ i < 8, f i = g i) :
    fillC a f = some ((List.range 8).foldl (fun a i => a.set i (g i)) a) :=
  loop_fold' _ fun i _ hi => by rw [← e i hi]; exact updA_lt (by omega)

theorem secondC_eq (t2 : Arr 128 40) (s : V8 W64) :
    secondC t2 s = some ((List.range 80).foldl (fun s i => shaRound bigSigma0_512 bigSigma1_512 s (word 64 2 t2 i)) s) :=
  loop_fold' _ fun i _ hi => bind_ok (wordC_eq (by omega)) rfl

theorem loadFrom_le {o : Obj} {n j : Nat} (h : n + 16 * j + 16 ≤ o.data.length) :
    loadFrom o (o.addr + n) j = some (Simd.load (o.data.drop n) (16 * j)) := by
  refine bind_ok (v := o.addr + (n + 16 * j)) ?_ ((loadu_le h).trans (by rw [load_drop]))
  rw [← Nat.add_assoc]
  refine if_pos (.inr ⟨Nat.le_add_right _ _, ?_⟩)
  show _ ≤ o.addr + o.data.length
  omega

/-- `x[i]` after `load_data_avx2`. -/
def pairX (x0 : V8 V256) (d : Bytes) (i : Nat) : V256 :=
  mm256_shuffle_epi8 (mm256_insertf128_si256 (mm256_insertf128_si256 (x0.get i) (Simd.load d (16 * (8 + i))) 1)
    (Simd.load d (16 * i)) 0) MASK2

/-- `y` of `load_data_avx2`. -/
def pairY (x : V8 V256) (i : Nat) : V256 :=
  mm256_add_epi64 (x.get i) (mm256_set_m128i (ldK Sha512.K64 (i * 2)) (ldK Sha512.K64 (i * 2)))

/-- The loop body on the blocks `i`, `i + 1`. -/
theorem avx2PairC_eq (a : Nat) (o : Obj) (v : V8 W64 × V8 V256 × Arr 128 8 × Arr 128 40) (i : Nat)
    (h : 128 * i + 256 ≤ o.data.length) :
    avx2PairC (tableObj a Sha512.K64) o v i = some (avx2Pair v (o.data.drop (128 * i))) := by
  refine bind_ok (add_le (by omega)) <|
    bind_ok (all8_eq (pairX v.2.1 (o.data.drop (128 * i))) fun j hj =>
      bind_ok (loadFrom_le (o := o) (n := 128 * i) (j := 8 + j) (by omega)) <|
      bind_ok (loadFrom_le (o := o) (n := 128 * i) (j := j) (by omega)) rfl) <|
    bind_ok (all8_eq (fun i => ldK Sha512.K64 (i * 2)) fun j hj => by
      have := k512 a j hj
      rwa [Nat.mul_comm] at this) ?_
  show _ = some (avx2Pair v _)
  have e : avx2Pair v (o.data.drop (128 * i)) =
    (let x := V8.ofFn (pairX v.2.1 (o.data.drop (128 * i)))
     let ms := (List.range 8).foldl (fun (a : Arr 128 8) i => a.set i (mm256_extracti128_si256 (pairY x i) 0)) v.2.2.1
     let t2 := (List.range 8).foldl (fun (a : Arr 128 40) i => a.set i (mm256_extracti128_si256 (pairY x i) 1)) v.2.2.2
     let w := mainLoop2 { s := v.1, x := x, ms := ms, t2 := t2, idx := 16 }
     let state := accumulate v.1 (lastLoop bigSigma0_512 bigSigma1_512 2 w.ms w.s)
     let cur := (List.range 80).foldl (fun s i => shaRound bigSigma0_512 bigSigma1_512 s (word 64 2 w.t2 i)) state
     (accumulate state cur, w.x, w.ms, w.t2)) := rfl
  rw [e]
  generalize V8.ofFn (pairX v.2.1 (o.data.drop (128 * i))) = x
  refine bind_ok (fillC_eq (by decide) _ (fun i => mm256_extracti128_si256 (pairY x i) 0) fun i hi => by
      simp only [ofFn_get8 _ hi]; rfl) <|
    bind_ok (fillC_eq (by decide) _ (fun i => mm256_extracti128_si256 (pairY x i) 1) fun i hi => by
      simp only [ofFn_get8 _ hi]; rfl) <|
    bind_ok (mainLoop2C_eq a _ rfl) <| bind_ok (lastLoopC_eq _ _ _ (by decide) _) <| bind_ok (accumulateC_eq _ _) <|
    bind_ok (secondC_eq _ _) <| bind_ok (accumulateC_eq _ _) ?_
  rfl

theorem load_left (d e : Bytes) {n : Nat} (h : n + 16 ≤ d.length) : Simd.load (d ++ e) n = Simd.load d n := by
  apply Simd.pack_congr (by decide)
  intro k hk
  rw [List.getD_eq_getElem?_getD, List.getD_eq_getElem?_getD, List.getElem?_append_left (by omega)]

/-- Only the first 256 bytes matter. -/
theorem avx2Pair_left (v : V8 W64 × V8 V256 × Arr 128 8 × Arr 128 40) {d : Bytes} (h : d.length = 256) (e : Bytes) :
    avx2Pair v (d ++ e) = avx2Pair v d := by
  have key : V8.ofFn (pairX v.2.1 (d ++ e)) = V8.ofFn (pairX v.2.1 d) := by
    unfold V8.ofFn pairX
    simp only [load_left d e (n := 16 * 0) (by omega), load_left d e (n := 16 * 1) (by omega), load_left d e (n := 16 * 2) (by omega),
      load_left d e (n := 16 * 3) (by omega), load_left d e (n := 16 * 4) (by omega), load_left d e (n := 16 * 5) (by omega),
      load_left d e (n := 16 * 6) (by omega), load_left d e (n := 16 * 7) (by omega), load_left d e (n := 16 * (8 + 0)) (by omega),
      load_left d e (n := 16 * (8 + 1)) (by omega), load_left d e (n := 16 * (8 + 2)) (by omega),
      load_left d e (n := 16 * (8 + 3)) (by omega), load_left d e (n := 16 * (8 + 4)) (by omega),
      load_left d e (n := 16 * (8 + 5)) (by omega), load_left d e (n := 16 * (8 + 6)) (by omega),
      load_left d e (n := 16 * (8 + 7)) (by omega)]
  have e (d : Bytes) : avx2Pair v d =
    (let x := V8.ofFn (pairX v.2.1 d)
     let ms := (List.range 8).foldl (fun (a : Arr 128 8) i => a.set i (mm256_extracti128_si256 (pairY x i) 0)) v.2.2.1
     let t2 := (List.range 8).foldl (fun (a : Arr 128 40) i => a.set i (mm256_extracti128_si256 (pairY x i) 1)) v.2.2.2
     let w := mainLoop2 { s := v.1, x := x, ms := ms, t2 := t2, idx := 16 }
     let state := accumulate v.1 (lastLoop bigSigma0_512 bigSigma1_512 2 w.ms w.s)
     let cur := (List.range 80).foldl (fun s i => shaRound bigSigma0_512 bigSigma1_512 s (word 64 2 w.t2 i)) state
     (accumulate state cur, w.x, w.ms, w.t2)) := rfl
  rw [e, e, key]

/-- The loop over an even number of blocks that start at byte `128 * start`. -/
theorem pairs_eq (a : Nat) (o : Obj) (m start : Nat) (blks : List Bytes) (hm : blks.length = 2 * m) (hb : ∀ b ∈ blks, b.length = 128)
    (hd : o.data.drop (128 * start) = blks.flatten) (v : V8 W64 × V8 V256 × Arr 128 8 × Arr 128 40) :
    loop m v (fun v i => avx2PairC (tableObj a Sha512.K64) o v (start + 2 * i)) = some (avx2Pairs v blks) := by
  induction m generalizing start blks v with
  | zero =>
    obtain rfl := List.eq_nil_of_length_eq_zero hm
    rfl
  | succ m ih =>
    match blks, hm with
    | b :: c :: rest, hm =>
      have hb0 : b.length = 128 := hb b (by simp)
      have hc0 : c.length = 128 := hb c (by simp)
      have hl := congrArg List.length hd
      rw [List.flatten_cons, List.flatten_cons] at hd
      rw [List.flatten_cons, List.flatten_cons, List.length_drop, List.length_append, List.length_append] at hl
      have e := avx2PairC_eq a o v start (by omega)
      rw [hd, ← List.append_assoc, avx2Pair_left v (by simp [hb0, hc0])] at e
      rw [Nat.add_comm m 1, loop_add, loop_succ, loop_zero]
      show ((avx2PairC (tableObj a Sha512.K64) o v (start + 2 * 0)).bind _) = _
      rw [Nat.mul_zero, Nat.add_zero, e]
      have hd' : o.data.drop (128 * (start + 2)) = rest.flatten := by
        rw [Nat.mul_add, ← List.drop_drop, hd, ← List.append_assoc, List.drop_left' (by simp [hb0, hc0])]
      have := ih (start + 2) rest (by simp at hm; omega) (fun x hx => hb x (by simp [hx])) hd' (avx2Pair v (b ++ c))
      simp only [show ∀ i, start + 2 * (1 + i) = start + 2 + 2 * i by intro i; omega]
      exact this

theorem length_flatten_blocks (blks : List Bytes) (hb : ∀ b ∈ blks, b.length = 128) : blks.flatten.length = 128 * blks.length := by
  induction blks with
  | nil => rfl
  | cons b blks ih =>
    rw [List.flatten_cons, List.length_append, ih fun x hx => hb x (by simp [hx]), hb b (by simp), List.length_cons]
    omega

theorem avx2C_eq (kAddr addr : Nat) (s : V8 W64) (blks : List Bytes) (hb : ∀ b ∈ blks, b.length = 128) :
    avx2C kAddr s ⟨addr, blks.flatten⟩ blks.length = some (avx2 s blks) := by
  unfold avx2C avx2
  by_cases h : blks.length % 2 ≠ 0
  · match blks, hb, h with
    | b :: rest, hb, h =>
      have hb0 : b.length = 128 := hb b (by simp)
      refine bind_ok (v := (avxBlock s b, 1)) ?_ ?_
      · unfold firstC
        rw [if_pos h]
        refine bind_ok (check_of (by simp)) <| bind_ok (avxBlockC_eq kAddr s _ ?_) ?_
        · simp [hb0]
        · show some (avxBlock s (List.take 128 (b ++ rest.flatten)), 1) = _
          rw [List.take_left' hb0]
      · rw [if_pos h]
        simp only [List.length_cons] at h ⊢
        rw [show (rest.length + 1 - 1 + 1) / 2 = rest.length / 2 by omega]
        refine bind_ok (pairs_eq kAddr _ _ 1 rest (by omega) (fun x hx => hb x (by simp [hx])) ?_ _) rfl
        show List.drop 128 (b ++ rest.flatten) = _
        rw [List.drop_left' hb0]
  · refine bind_ok (v := (s, 0)) (if_neg h) ?_
    rw [if_neg h]
    simp only []
    rw [show (blks.length - 0 + 1) / 2 = blks.length / 2 by omega]
    exact bind_ok (pairs_eq kAddr _ _ 0 blks (by omega) hb rfl _) rfl

end Hashes.Sha2Simd
