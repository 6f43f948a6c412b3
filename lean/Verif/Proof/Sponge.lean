import Verif.Proof.Xof
import Verif.Proof.KeccakP
import Verif.Proof.Words
import Verif.Proof.Md
/- The sponge of the sha3 crate, on byte states. -/
namespace Hashes
namespace Spec.Keccak

@[simp] theorem length_xorBytes (a b : Bytes) : (xorBytes a b).length = min a.length b.length := by simp [xorBytes]

theorem xorBytes_append {a b c d : Bytes} (h : a.length = c.length) :
    xorBytes (a ++ b) (c ++ d) = xorBytes a c ++ xorBytes b d := by
  simp [xorBytes, List.zipWith_append h]

theorem xorBytes_assoc (a b c : Bytes) : xorBytes (xorBytes a b) c = xorBytes a (xorBytes b c) := by
  induction a generalizing b c with
  | nil => simp [xorBytes]
  | cons x a ih =>
    cases b with
    | nil => simp [xorBytes]
    | cons y b =>
      cases c with
      | nil => simp [xorBytes]
      | cons z c =>
        have := ih b c
        simp only [xorBytes] at this
        simp [xorBytes, BitVec.xor_assoc, this]

theorem xorBytes_zero {a : Bytes} {n : Nat} (h : a.length = n) : xorBytes a (List.replicate n 0) = a := by
  subst h
  induction a with
  | nil => rfl
  | cons x a ih =>
    simp only [xorBytes] at ih
    simp only [xorBytes, List.length_cons, List.replicate_succ, List.zipWith_cons_cons, ih]
    simp

theorem zero_xorBytes {a : Bytes} {n : Nat} (h : a.length = n) : xorBytes (List.replicate n 0) a = a := by
  subst h
  induction a with
  | nil => rfl
  | cons x a ih =>
    simp only [xorBytes] at ih
    simp only [xorBytes, List.length_cons, List.replicate_succ, List.zipWith_cons_cons, ih]
    simp

theorem leBytes_xor (n : Nat) (x : Nat) (b : Bytes) (h : b.length = n) :
    leBytes n (x ^^^ ofLE b) = xorBytes (leBytes n x) b := by
  induction n generalizing x b with
  | zero => simp [leBytes, xorBytes]
  | succ n ih =>
    cases b with
    | nil => simp at h
    | cons y b =>
      have hd : (x ^^^ (y.toNat + 256 * ofLE b)) / 256 = x / 256 ^^^ ofLE b := by
        have := Nat.xor_div_two_pow (a := x) (b := y.toNat + 256 * ofLE b) (n := 8)
        rw [show (2 : Nat) ^ 8 = 256 from rfl] at this
        rw [this]
        congr 1
        have := y.isLt
        omega
      have hm : BitVec.ofNat 8 (x ^^^ (y.toNat + 256 * ofLE b)) = BitVec.ofNat 8 x ^^^ y := by
        apply BitVec.eq_of_toNat_eq
        rw [BitVec.toNat_xor, BitVec.toNat_ofNat, BitVec.toNat_ofNat, Nat.xor_mod_two_pow]
        congr 1
        have := y.isLt
        omega
      simp only [leBytes, ofLE]
      rw [hd, hm, ih _ _ (by simpa using h)]
      rfl

/-- The permutation only sees 25 lanes. -/
theorem onBytes_congr {f g : List W64 → List W64} (h : ∀ s, s.length = 25 → f s = g s) : onBytes f = onBytes g := by
  funext S
  unfold onBytes
  rw [h _ (by simp)]

theorem onBits_congr {f g : List W64 → List W64} (h : ∀ s, s.length = 25 → f s = g s) : onBits f = onBits g := by
  funext S
  unfold onBits
  rw [h _ (by simp)]

theorem absorbBytes_congr {f g : List W64 → List W64} (h : ∀ s, s.length = 25 → f s = g s) (rate : Nat) (D : Byte)
    (m : Bytes) : absorbBytes f rate D m = absorbBytes g rate D m := by
  unfold absorbBytes
  rw [onBytes_congr h]

theorem squeezeBytes_congr {f g : List W64 → List W64} (h : ∀ s, s.length = 25 → f s = g s) (rate n : Nat)
    (S : Bytes) : squeezeBytes f rate n S = squeezeBytes g rate n S := by
  induction n generalizing S with
  | zero => rfl
  | succ n ih => simp only [squeezeBytes]; rw [onBytes_congr h, ih]

theorem spongeBytes_congr {f g : List W64 → List W64} (h : ∀ s, s.length = 25 → f s = g s) (rate : Nat) (D : Byte)
    (m : Bytes) (L : Nat) : spongeBytes f rate D m L = spongeBytes g rate D m L := by
  unfold spongeBytes
  rw [absorbBytes_congr h, squeezeBytes_congr h]

end Spec.Keccak

namespace Sha3
open Spec.Keccak

/-- A permutation of 25-lane states. -/
def Perm (f : Lanes → Lanes) : Prop := ∀ s, s.length = 25 → (f s).length = 25

theorem perm24 : Perm f24 := fun _ h => P1600.length_p1600 24 h
theorem perm12 : Perm f12 := fun _ h => P1600.length_p1600 12 h
theorem f24_eq : ∀ s : Lanes, s.length = 25 → f24 s = keccakP 24 s := fun _ h => P1600.p1600_eq (by decide) h
theorem f12_eq : ∀ s : Lanes, s.length = 25 → f12 s = keccakP 12 s := fun _ h => P1600.p1600_eq (by decide) h

/-- The 200 state bytes. -/
abbrev bytes (s : Lanes) : Bytes := bytesOfWordsLE s

theorem length_bytes {s : Lanes} (h : s.length = 25) : (bytes s).length = 200 := by
  simp [bytes, length_bytesOfWordsLE, h]

theorem bytes_zero : bytes zero = List.replicate 200 0 := by decide +kernel

theorem length_xorLanes (bs : List Bytes) (s : Lanes) : (xorLanes bs s).length = s.length := by
  induction bs generalizing s with
  | nil => cases s <;> rfl
  | cons b bs ih => cases s with
    | nil => rfl
    | cons w s => simp [xorLanes, ih]

theorem bytes_xorLanes (bs : List Bytes) (s : Lanes) (hl : ∀ b ∈ bs, b.length = 8) (hle : bs.length ≤ s.length) :
    bytes (xorLanes bs s) = xorBytes (bytes s) (bs.flatten ++ List.replicate (8 * s.length - 8 * bs.length) 0) := by
  induction bs generalizing s with
  | nil =>
    have : xorLanes [] s = s := by cases s <;> rfl
    rw [this]
    simp only [List.flatten_nil, List.nil_append, List.length_nil, Nat.mul_zero, Nat.sub_zero]
    rw [xorBytes_zero]
    simp [bytes, length_bytesOfWordsLE, Nat.mul_comm]
  | cons b bs ih => cases s with
    | nil => simp at hle
    | cons w s =>
      have hb : b.length = 8 := hl b List.mem_cons_self
      simp only [bytes, xorLanes, bytesOfWordsLE_cons] at ih ⊢
      rw [ih s (fun b h => hl b (List.mem_cons_of_mem _ h)) (by simpa using hle)]
      have e : leBytes (64 / 8) (w ^^^ BitVec.ofNat 64 (ofLE b)).toNat = xorBytes (leBytes 8 w.toNat) b := by
        rw [← leBytes_xor 8 _ b hb, BitVec.toNat_xor, BitVec.toNat_ofNat, Nat.mod_eq_of_lt]
        have := ofLE_lt b
        rw [hb] at this
        exact this
      rw [e, List.flatten_cons, List.append_assoc, xorBytes_append (by simp [hb])]
      congr 4
      simp only [List.length_cons]
      omega

theorem words_bytes {s : Lanes} (h : s.length = 25) : (List.range 25).map (wordLE 64 (bytes s)) = s := by
  apply List.ext_getElem
  · simp [h]
  · intro i h1 h2
    have := wordLE_append (w := 64) (by decide) s [] 0 (i := i) h2
    rw [List.append_nil] at this
    simp [bytes, this, h2]

theorem onBytes_bytes (f : Lanes → Lanes) {s : Lanes} (h : s.length = 25) : onBytes f (bytes s) = bytes (f s) := by
  rw [onBytes, words_bytes h]

theorem asBytes_eq (n : Nat) (s : Lanes) : asBytes n s = (bytes s).take n := by
  induction s generalizing n with
  | nil => cases n <;> simp [asBytes, bytes, bytesOfWordsLE]
  | cons w s ih =>
    simp only [asBytes, bytes, bytesOfWordsLE_cons] at ih ⊢
    rw [ih, List.take_append]
    congr 1
    · by_cases h : n ≤ 8
      · rw [Nat.min_eq_right h]
      · rw [Nat.min_eq_left (by omega), List.take_of_length_le (by simp), List.take_of_length_le (by simp; omega)]

theorem length_absorbBlock {f : Lanes → Lanes} (hf : Perm f) {s : Lanes} (h : s.length = 25) (b : Bytes) :
    (absorbBlock f s b).length = 25 := hf _ (by rw [length_xorLanes, h])

theorem absorbBlock_eq (f : Lanes → Lanes) {s : Lanes} (h : s.length = 25) {rate : Nat} {b : Bytes}
    (hb : b.length = rate) (h8 : 8 ∣ rate) (hr : rate ≤ 200) :
    bytes (absorbBlock f s b) = onBytes f (xorBytes (bytes s) (b ++ List.replicate (200 - rate) 0)) := by
  have hlc : (chunks 8 b).length = rate / 8 := by rw [length_chunks, hb]
  have e : bytes (xorLanes (chunks 8 b) s) = xorBytes (bytes s) (b ++ List.replicate (200 - rate) 0) := by
    rw [bytes_xorLanes _ _ (fun _ h => length_of_mem_chunks h) (by rw [hlc, h]; omega), chunks_flatten (by rw [hb]; exact h8),
      hlc, h, show 8 * 25 - 8 * (rate / 8) = 200 - rate by omega]
  rw [← e, onBytes_bytes f (by rw [length_xorLanes, h])]
  rfl

theorem updateBlocks_eq {f : Lanes → Lanes} (hf : Perm f) {rate : Nat} (h8 : 8 ∣ rate) (hr : rate ≤ 200)
    (l : List Bytes) (hl : ∀ b ∈ l, b.length = rate) {s : Lanes} (h : s.length = 25) :
    (updateBlocks f s l).length = 25 ∧ bytes (updateBlocks f s l) =
      l.foldl (fun S B => onBytes f (xorBytes S (B ++ List.replicate (200 - rate) 0))) (bytes s) := by
  induction l generalizing s with
  | nil => exact ⟨h, rfl⟩
  | cons b l ih =>
    have := ih (fun b h => hl b (List.mem_cons_of_mem _ h)) (length_absorbBlock hf h b)
    simp only [updateBlocks, List.foldl_cons] at this ⊢
    rw [absorbBlock_eq f h (hl b List.mem_cons_self) h8 hr] at this
    exact this

theorem length_updateBlocks {f : Lanes → Lanes} (hf : Perm f) (l : List Bytes) {s : Lanes} (h : s.length = 25) :
    (updateBlocks f s l).length = 25 := by
  induction l generalizing s with
  | nil => exact h
  | cons b l ih => exact ih (length_absorbBlock hf h b)

/-- The bytes that finish the last block: separation byte, zeros, final bit. -/
def finish (D : Byte) : Nat → Bytes
  | 0 => []
  | 1 => [D ||| 0x80]
  | n + 2 => D :: (List.replicate n 0 ++ [0x80])

@[simp] theorem length_finish (D : Byte) (n : Nat) : (finish D n).length = n := by
  match n with
  | 0 => rfl
  | 1 => rfl
  | n + 2 => simp [finish]

theorem getD_append_right (a b : Bytes) {n : Nat} (h : a.length ≤ n) : (a ++ b).getD n 0 = b.getD (n - a.length) 0 := by
  simp [List.getD_eq_getElem?_getD, List.getElem?_append_right h]

theorem lastBlock_eq {bs : Nat} {b : BlockBuffer} (h : b.WF .eager bs) (D : Byte) :
    lastBlock bs b D = b.content ++ finish D (bs - b.pos) := by
  have hlt : b.pos < bs := h.2
  have hcl := h.length_content
  simp only [lastBlock, BlockBuffer.padWithZeros]
  rw [show b.data.take b.pos = b.content from rfl]
  obtain ⟨n, hn⟩ : ∃ n, bs - b.pos = n + 1 := ⟨bs - b.pos - 1, by omega⟩
  rw [hn]
  have e1 : (b.content ++ List.replicate (n + 1) (0 : Byte)).set b.pos D = b.content ++ D :: List.replicate n 0 := by
    rw [List.set_append_right _ _ (by omega), hcl, Nat.sub_self, List.replicate_succ]
    rfl
  rw [e1]
  have e2 : (b.content ++ D :: List.replicate n (0 : Byte)).length - 1 = b.pos + n := by
    simp only [List.length_append, hcl, List.length_cons, List.length_replicate]; omega
  rw [e2, List.set_append_right _ _ (by omega), hcl, Nat.add_sub_cancel_left]
  congr 1
  have e3 : (b.content ++ D :: List.replicate n (0 : Byte)).getD (b.pos + n) 0 = (D :: List.replicate n 0).getD n 0 := by
    rw [getD_append_right _ _ (by omega), hcl, Nat.add_sub_cancel_left]
  rw [e3]
  cases n with
  | zero => rfl
  | succ n =>
    simp only [finish, List.set_cons_succ, List.getD_cons_succ]
    rw [List.replicate_succ', List.set_append_right _ _ (by simp), getD_append_right _ _ (by simp)]
    simp

theorem or_eq_xor {D : Byte} (hD : D.toNat < 128) : D ||| 0x80 = D ^^^ 0x80 := by
  have : ∀ D : BitVec 8, D.toNat < 128 → D ||| 0x80 = D ^^^ 0x80 := by decide +kernel
  exact this D hD

/-- RFC form of the last block. -/
theorem finish_xor {D : Byte} (hD : D.toNat < 128) (t : Bytes) {rate : Nat} (ht : t.length < rate) (hr : rate ≤ 200) :
    xorBytes (t ++ [D] ++ List.replicate (200 - (t ++ [D]).length) 0)
      (List.replicate (rate - 1) 0 ++ [0x80] ++ List.replicate (200 - rate) 0) =
    t ++ finish D (rate - t.length) ++ List.replicate (200 - rate) 0 := by
  obtain ⟨n, hn⟩ : ∃ n, rate = t.length + (n + 1) := ⟨rate - t.length - 1, by omega⟩
  have e0 : (t ++ [D]).length = t.length + 1 := by simp
  rw [e0]
  have e1 : rate - t.length = n + 1 := by omega
  rw [e1]
  generalize hz : 200 - rate = z
  cases n with
  | zero =>
    rw [show 200 - (t.length + 1) = z by omega, show rate - 1 = t.length by omega]
    rw [xorBytes_append (by simp), xorBytes_append (by simp), xorBytes_zero rfl, xorBytes_zero (by simp)]
    simp only [finish, or_eq_xor hD]
    rfl
  | succ n =>
    rw [show 200 - (t.length + 1) = n + (1 + z) by omega, show rate - 1 = t.length + (1 + n) by omega]
    simp only [← List.replicate_append_replicate, List.append_assoc]
    rw [xorBytes_append (by simp), xorBytes_append (by simp), xorBytes_append (by simp), xorBytes_append (by simp),
      xorBytes_zero rfl, xorBytes_zero (by simp), xorBytes_zero (by simp), xorBytes_zero (by simp)]
    simp only [finish, List.cons_append, List.nil_append, List.append_assoc]
    rfl

/-- The state after the last block is RFC 9861's absorb phase. -/
theorem absorb_eq {f : Lanes → Lanes} (hf : Perm f) {rate : Nat} (h0 : 0 < rate) (h8 : 8 ∣ rate) (hr : rate ≤ 200)
    {D : Byte} (hD : D.toNat < 128) (m : Bytes) {b : BlockBuffer} (wf : b.WF .eager rate)
    (hc : b.content = m.drop (m.length / rate * rate)) :
    bytes (absorbBlock f (updateBlocks f zero (blocks rate (m.length / rate) m)) (lastBlock rate b D)) =
      absorbBytes f rate D m := by
  have hlt : b.pos < rate := wf.2
  have hcl := wf.length_content
  have hle := Nat.div_mul_le_self m.length rate
  obtain ⟨hl, hu⟩ := updateBlocks_eq hf h8 hr (blocks rate (m.length / rate) m)
    (fun b h => length_of_mem_blocks hle h) (s := zero) (by simp [zero])
  have hlen : (lastBlock rate b D).length = rate := by
    rw [lastBlock_eq wf]; simp only [List.length_append, hcl, length_finish]; omega
  rw [absorbBlock_eq f hl hlen h8 hr, hu, bytes_zero]
  simp only [absorbBytes]
  rw [List.length_append, List.length_singleton, Nat.add_sub_cancel, blocks_append_left _ _ _ _ hle,
    List.drop_append_of_le_length hle, ← hc, xorBytes_assoc]
  rw [finish_xor hD _ (by omega) hr, lastBlock_eq wf, hcl]

theorem xof_lawful {f : Lanes → Lanes} (hf : Perm f) {rate : Nat} (h0 : 0 < rate) (hr : rate ≤ 200) :
    (xof f rate).Lawful (fun s => s.length = 25) where
  bs_pos := h0
  len := fun s h => by simp only [xof, asBytes_eq, List.length_take, length_bytes h]; omega
  next := fun s h => hf s h

theorem stream_eq {f : Lanes → Lanes} (hf : Perm f) (rate k : Nat) {s : Lanes} (h : s.length = 25) :
    (xof f rate).stream k s = squeezeBytes f rate k (bytes s) := by
  induction k generalizing s with
  | zero => rfl
  | succ k ih =>
    have := ih (hf s h)
    simp only [XofCore.stream, XofCore.readBlocks, squeezeBytes, onBytes_bytes f h, xof, asBytes_eq] at this ⊢
    rw [this]

/-- Reading `L` bytes from a reader. -/
theorem read_eq {f : Lanes → Lanes} (hf : Perm f) {rate : Nat} (h0 : 0 < rate) (hr : rate ≤ 200) {s : Lanes}
    (h : s.length = 25) (L : Nat) :
    ((xof f rate).read ((xof f rate).reader s) L).1 = (squeezeBytes f rate (L / rate + 1) (bytes s)).take L := by
  rw [XofCore.read_eq (xof_lawful hf h0 hr) h L (L / rate + 1), stream_eq hf _ _ h]
  have := Nat.div_add_mod' L rate
  have := Nat.mod_lt L h0
  simp only [xof]
  rw [Nat.add_mul]
  omega

theorem lastBlock_congr {bs : Nat} {b b' : BlockBuffer} (h : b.WF .eager bs) (h' : b'.WF .eager bs)
    (hc : b.content = b'.content) (D : Byte) : lastBlock bs b D = lastBlock bs b' D := by
  rw [lastBlock_eq h, lastBlock_eq h', hc, pos_congr h h' hc]

theorem fixed_lawful {f : Lanes → Lanes} (hf : Perm f) {rate : Nat} (h0 : 0 < rate) (n : Nat) (D : Byte) :
    (fixed f n rate D).Lawful (fun s => s.length = 25) where
  bs_pos := h0
  nil := fun s => rfl
  app := fun s x y => by simp [fixed, updateBlocks]
  inv_init := by simp [fixed, zero]
  inv_update := fun s x _ h => length_updateBlocks hf x h
  reset_eq := fun _ _ => rfl
  fin_congr := fun s b b' h h' hc => by
    simp only [fixed] at h h' ⊢
    rw [lastBlock_congr h h' hc]

theorem fixed_serLawful {f : Lanes → Lanes} {rate : Nat} (hr : rate ≤ 200) (n : Nat) (D : Byte) :
    (fixed f n rate D).SerLawful (fun s => s.length = 25) where
  bs_le := by simp only [fixed]; omega
  len := fun s h => length_bytes h
  round := fun s h => by
    simp only [fixed, serialize, deserialize]
    rw [if_pos (length_bytes h), words_bytes h]

theorem fixed_deserLawful {f : Lanes → Lanes} (rate : Nat) (n : Nat) (D : Byte) :
    (fixed f n rate D).DeserLawful where
  canon := fun raw s h => by
    simp only [fixed, deserialize, serialize] at h ⊢
    split at h
    · rename_i hl
      injection h with h
      subst h
      rw [bytesOfWordsLE_range (by decide) _ _ (by omega)]
      exact List.take_of_length_le (by omega)
    · cases h

theorem fixed_digest_eq {f : Lanes → Lanes} (hf : Perm f) {rate : Nat} (h0 : 0 < rate) (h8 : 8 ∣ rate)
    (hr : rate ≤ 200) {D : Byte} (hD : D.toNat < 128) (n : Nat) (m : Bytes) :
    (fixed f n rate D).digest m = (absorbBytes f rate D m).take n := by
  obtain ⟨b, h1, h2, -, h4⟩ := Core.digest_eager (fixed_lawful hf h0 n D) rfl m
  rw [h4]
  simp only [fixed] at h1 h2 ⊢
  rw [asBytes_eq, absorb_eq hf h0 h8 hr hD m h1 h2]

theorem shake_lawful {f : Lanes → Lanes} (hf : Perm f) {rate : Nat} (h0 : 0 < rate) (D : Byte) :
    (shake f rate D).Lawful (fun s => s.length = 25) where
  bs_pos := h0
  nil := fun s => rfl
  app := fun s x y => by simp [shake, updateBlocks]
  inv_init := by simp [shake, zero]
  inv_update := fun s x _ h => length_updateBlocks hf x h
  reset_eq := fun _ _ => rfl
  fin_congr := fun s b b' h h' hc => by
    simp only [shake] at h h' ⊢
    rw [lastBlock_congr h h' hc]

theorem shake_digest_eq {f : Lanes → Lanes} (hf : Perm f) {rate : Nat} (h0 : 0 < rate) (h8 : 8 ∣ rate)
    (hr : rate ≤ 200) {D : Byte} (hD : D.toNat < 128) (m : Bytes) :
    ((shake f rate D).digest m).length = 25 ∧ bytes ((shake f rate D).digest m) = absorbBytes f rate D m := by
  obtain ⟨b, h1, h2, -, h4⟩ := Core.digest_eager (shake_lawful hf h0 D) rfl m
  rw [h4]
  simp only [shake] at h1 h2 ⊢
  refine ⟨length_absorbBlock hf (length_updateBlocks hf _ (by simp [zero])) _, ?_⟩
  rw [absorb_eq hf h0 h8 hr hD m h1 h2]

theorem turbo_lawful {f : Lanes → Lanes} (hf : Perm f) {rate : Nat} (h0 : 0 < rate) {d : Byte} {i : Turbo}
    (hi : Turbo.new d = some i) :
    (turbo f rate i).Lawful (fun s => s.state.length = 25 ∧ s.domain = d) where
  bs_pos := h0
  nil := fun s => rfl
  app := fun s x y => by simp [turbo, updateBlocks]
  inv_init := by
    unfold Turbo.new at hi
    split at hi
    · injection hi with hi
      subst hi
      simp [turbo, zero]
    · cases hi
  inv_update := fun s x _ h => ⟨length_updateBlocks hf x h.1, h.2⟩
  reset_eq := fun s h => by simp [turbo, h.2, hi]
  fin_congr := fun s b b' h h' hc => by
    simp only [turbo] at h h' ⊢
    rw [lastBlock_congr h h' hc]

theorem turbo_new {d : Byte} {i : Turbo} (hi : Turbo.new d = some i) :
    i = ⟨zero, d⟩ ∧ d.toNat < 128 := by
  unfold Turbo.new at hi
  split at hi
  · rename_i h
    injection hi with hi
    exact ⟨hi.symm, Nat.lt_succ_of_le h.2⟩
  · cases hi

theorem turbo_digest_eq {f : Lanes → Lanes} (hf : Perm f) {rate : Nat} (h0 : 0 < rate) (h8 : 8 ∣ rate)
    (hr : rate ≤ 200) {d : Byte} {i : Turbo} (hi : Turbo.new d = some i) (m : Bytes) :
    ((turbo f rate i).digest m).length = 25 ∧ bytes ((turbo f rate i).digest m) = absorbBytes f rate d m := by
  obtain ⟨b, h1, h2, -, h4⟩ := Core.digest_eager (turbo_lawful hf h0 hi) rfl m
  rw [h4]
  simp only [turbo] at h1 h2 ⊢
  obtain ⟨rfl, hd⟩ := turbo_new hi
  simp only
  refine ⟨length_absorbBlock hf (length_updateBlocks hf _ (by simp [zero])) _, ?_⟩
  rw [absorb_eq hf h0 h8 hr hd m h1 h2]

end Sha3
end Hashes
