import Verif.Proof.K12
import Verif.Model.Width
/- Width of `usize`: cSHAKE's length products and KangarooTwelve's chunk counter. -/
namespace Hashes

theorem usizeMul_of_lt {p a b : Nat} (c : Bool) (h : a * b < 2 ^ p) : usizeMul c p a b = some (a * b) := if_pos h

theorem usizeMul_wrap (p a b : Nat) : usizeMul false p a b = some (a * b % 2 ^ p) := by
  unfold usizeMul
  split
  · next h => rw [Nat.mod_eq_of_lt h]
  · rfl

theorem usizeMul_none {p a b : Nat} : usizeMul true p a b = none ↔ 2 ^ p ≤ a * b := by
  unfold usizeMul
  split <;> simp <;> omega

namespace Sha3

/-- With both products given, the constructor absorbs the encoded lengths, the strings and zeros. -/
theorem newOn_eq {f : Lanes → Lanes} (hf : Perm f) {rate : Nat} (h0 : 0 < rate) {c : Bool} {p n k : Nat}
    {name cust : Bytes} (hne : ¬ (name = [] ∧ cust = [])) (hn : usizeMul c p name.length 8 = some n)
    (hk : usizeMul c p cust.length 8 = some k) (l : Bytes)
    (hl : l = Spec.Keccak.leftEncode (rate % 2 ^ 64) ++ Spec.Keccak.leftEncode (n % 2 ^ 64) ++ name ++
      Spec.Keccak.leftEncode (k % 2 ^ 64) ++ cust) :
    CShake.newOn c p f rate name cust =
      some ⟨updateBlocks f zero (chunks rate (l ++ List.replicate (rate - l.length % rate) 0)),
        updateBlocks f zero (chunks rate (l ++ List.replicate (rate - l.length % rate) 0)), 0x04⟩ := by
  have hb : (List.replicate 9 (0 : Byte)).length = 9 := by simp
  obtain ⟨a1, a2⟩ := leftEncode_eq (BitVec.ofNat 64 rate) hb
  obtain ⟨b1, b2⟩ := leftEncode_eq (BitVec.ofNat 64 n) a2
  obtain ⟨c1, c2⟩ := leftEncode_eq (BitVec.ofNat 64 k) b2
  have hif : ¬ (name.isEmpty = true ∧ cust.isEmpty = true) := by simpa using hne
  have hfl : l = [Spec.Keccak.leftEncode (rate % 2 ^ 64), Spec.Keccak.leftEncode (n % 2 ^ 64), name,
      Spec.Keccak.leftEncode (k % 2 ^ 64), cust].flatten := by simp [hl]
  rw [hfl, ← feed_eq hf h0 _ _ rfl]
  simp only [BitVec.toNat_ofNat] at a1 b1 c1
  simp only [CShake.newOn, if_neg hif, hn, hk, a1, b1, c1, List.foldl_cons, List.foldl_nil]

/-- Where the products fit, the constructor is the one of Model/Keccak.lean. -/
theorem newOn_fits (f : Lanes → Lanes) (rate : Nat) (c : Bool) {p : Nat} {name cust : Bytes}
    (hn : 8 * name.length < 2 ^ p) (hk : 8 * cust.length < 2 ^ p) :
    CShake.newOn c p f rate name cust = some (CShake.new f rate name cust) := by
  unfold CShake.newOn CShake.new
  rw [usizeMul_of_lt c (by omega : name.length * 8 < 2 ^ p), usizeMul_of_lt c (by omega : cust.length * 8 < 2 ^ p)]
  split <;> rfl

theorem newOn_none {f : Lanes → Lanes} {rate p : Nat} {name cust : Bytes} :
    CShake.newOn true p f rate name cust = none ↔ 2 ^ p ≤ 8 * name.length ∨ 2 ^ p ≤ 8 * cust.length := by
  by_cases hn : 8 * name.length < 2 ^ p
  · by_cases hk : 8 * cust.length < 2 ^ p
    · rw [newOn_fits f rate true hn hk]; simp; omega
    · have hc : ¬ (name.isEmpty = true ∧ cust.isEmpty = true) := by
        intro h
        have : cust = [] := by simpa using h.2
        rw [this] at hk
        exact hk (Nat.two_pow_pos p)
      unfold CShake.newOn
      rw [if_neg hc, usizeMul_of_lt true (by omega : name.length * 8 < 2 ^ p),
        usizeMul_none.2 (by omega : 2 ^ p ≤ cust.length * 8)]
      simp; omega
  · have hc : ¬ (name.isEmpty = true ∧ cust.isEmpty = true) := by
      intro h
      have : name = [] := by simpa using h.1
      rw [this] at hn
      exact hn (Nat.two_pow_pos p)
    unfold CShake.newOn
    rw [if_neg hc, usizeMul_none.2 (by omega : 2 ^ p ≤ name.length * 8)]
    simp; omega

theorem cshakeOn_new (f : Lanes → Lanes) (rate : Nat) (name cust : Bytes) :
    cshakeOn f rate (CShake.new f rate name cust) = cshake f rate name cust := rfl

/-- Two customizations the constructor confuses once the bit length `8 * 2 ^ (p - 3)` has wrapped to 0. -/
theorem newOn_collision {f : Lanes → Lanes} (hf : Perm f) {rate : Nat} (h0 : 0 < rate) {q : Nat} (z : Bytes)
    (hz : z.length + 2 = 2 ^ q) :
    CShake.newOn false (q + 3) f rate ([1, 0] ++ z) [] = CShake.newOn false (q + 3) f rate [] (z ++ [1, 0]) := by
  have e : 2 ^ q * 8 % 2 ^ (q + 3) = 0 := by rw [Nat.pow_add]; exact Nat.mod_self _
  have w1 : usizeMul false (q + 3) ([1, 0] ++ z : Bytes).length 8 = some 0 := by
    rw [usizeMul_wrap, ← e, ← hz, List.length_append, Nat.add_comm]; rfl
  have w2 : usizeMul false (q + 3) (z ++ [1, 0] : Bytes).length 8 = some 0 := by
    rw [usizeMul_wrap, ← e, ← hz, List.length_append]; rfl
  have w0 : usizeMul false (q + 3) ([] : Bytes).length 8 = some 0 := by rw [usizeMul_wrap]; simp
  rw [newOn_eq hf h0 (by simp) w1 w0 _ rfl, newOn_eq hf h0 (by simp) w0 w2 _ rfl]
  have : Spec.Keccak.leftEncode (0 % 2 ^ 64) = [1, 0] := by decide
  rw [this]
  simp

end Sha3

namespace K12
open Sha3 Spec.Keccak

theorem processChunkOn_eq {p : Nat} {s : State} (h : s.chainLength + 1 < 2 ^ p) : processChunkOn p s = processChunk s := by
  unfold processChunkOn processChunk
  split
  · simp only [Nat.mod_eq_of_lt h]
  · have : (processChainingChunk s).chainLength = s.chainLength := rfl
    simp only [this, Nat.mod_eq_of_lt h]

theorem chain_processChunk (s : State) : (processChunk s).chainLength = s.chainLength + 1 := by
  unfold processChunk
  split <;> rfl

theorem chain_updateBlock (s : State) (b : Bytes) :
    (updateBlock s b).chainLength = if s.bufpos = CHUNK_SIZE then s.chainLength + 1 else s.chainLength := by
  unfold updateBlock
  split
  · exact chain_processChunk s
  · rfl

theorem chain_mono (s : State) (l : List Bytes) : s.chainLength ≤ (updateBlocks s l).chainLength := by
  induction l generalizing s with
  | nil => exact Nat.le_refl _
  | cons b l ih =>
    have h1 := ih (updateBlock s b)
    have h2 := chain_updateBlock s b
    have : updateBlocks s (b :: l) = updateBlocks (updateBlock s b) l := rfl
    rw [this]
    split at h2 <;> omega

theorem updateBlockOn_eq {p : Nat} {s : State} {b : Bytes} (h : (updateBlock s b).chainLength < 2 ^ p) :
    updateBlockOn p s b = updateBlock s b := by
  rw [chain_updateBlock] at h
  unfold updateBlockOn updateBlock
  split
  · next hb => rw [if_pos hb] at h; rw [processChunkOn_eq h]
  · rfl

theorem updateBlocksOn_eq {p : Nat} {s : State} {l : List Bytes} (h : (updateBlocks s l).chainLength < 2 ^ p) :
    updateBlocksOn p s l = updateBlocks s l := by
  induction l generalizing s with
  | nil => rfl
  | cons b l ih =>
    have e1 : updateBlocks s (b :: l) = updateBlocks (updateBlock s b) l := rfl
    have e2 : updateBlocksOn p s (b :: l) = updateBlocksOn p (updateBlockOn p s b) l := rfl
    rw [e1] at h ⊢
    rw [e2, updateBlockOn_eq (Nat.lt_of_le_of_lt (chain_mono _ l) h), ih h]

theorem updOn_nil (p : Nat) (s : State) : updateBlocksOn p s [] = s := rfl
theorem updOn_app (p : Nat) (s : State) (x y : List Bytes) :
    updateBlocksOn p (updateBlocksOn p s x) y = updateBlocksOn p s (x ++ y) := by
  simp [updateBlocksOn]

theorem cust_updateBlockOn (p : Nat) (s : State) (b : Bytes) : (updateBlockOn p s b).customization = s.customization := by
  simp only [updateBlockOn]
  split
  · simp only [processChunkOn]; split <;> rfl
  · rfl

theorem cust_updateBlocksOn (p : Nat) (s : State) (l : List Bytes) :
    (updateBlocksOn p s l).customization = s.customization := by
  induction l generalizing s with
  | nil => rfl
  | cons b l ih =>
    have : updateBlocksOn p s (b :: l) = updateBlocksOn p (updateBlockOn p s b) l := rfl
    rw [this, ih, cust_updateBlockOn]

theorem lawfulOn (p : Nat) (cust : Bytes) : (coreOn p cust).Lawful (fun s => s.customization = cust) where
  bs_pos := (by decide : 0 < 128)
  nil := updOn_nil p
  app := updOn_app p
  inv_init := rfl
  inv_update := fun s x _ h => by rw [← h]; exact cust_updateBlocksOn p s x
  reset_eq := fun s h => by simp only [coreOn, h]
  fin_congr := fun s b b' h h' hc => by
    simp only [coreOn] at h h' ⊢
    simp only [finalizeOn]
    obtain ⟨a1, a2, a3, a4⟩ := digestBlocks_congr (by decide) h h' hc s.customization (updateBlocksOn p) s
      (updOn_nil p) (updOn_app p)
    rw [← a4]
    obtain ⟨c1, c2, c3, c4⟩ := digestBlocks_congr (by decide) a1 a2 a3 (lengthEncode s.customization.length)
      (updateBlocksOn p) (b.digestBlocks .eager 128 s.customization (updateBlocksOn p) s).2 (updOn_nil p) (updOn_app p)
    rw [← c4, ← c3, ← pos_congr c1 c2 c3]

/-- `finalize_xof_core` in terms of what is consumed: the whole blocks of `S = M ‖ C ‖ length_encode(|C|)`, then the rest. -/
theorem finalizeOn_blocks {p : Nat} {cust M : Bytes} {h : Hasher State} (r : (coreOn p cust).Rep h M) (S : Bytes)
    (hS : S = M ++ cust ++ Spec.K12.lengthEncode cust.length) :
    let s := updateBlocksOn p (new cust) (blocks 128 (S.length / 128) S)
    let x := S.drop (S.length / 128 * 128)
    let s' := if s.bufpos = CHUNK_SIZE ∧ x ≠ [] then processChunkOn p s else s
    (coreOn p cust).finish h =
      tail { s' with buffer := overwrite s'.buffer s'.bufpos x, bufpos := s'.bufpos + x.length } := by
  have L := lawfulOn p cust
  have hcust : h.core.customization = cust := r.invariant L
  have r2 := (r.update L cust).update L (lengthEncode cust.length)
  simp only [Core.finish, coreOn, finalizeOn, hcust]
  obtain ⟨wf, hc, hb⟩ := r2
  rw [lengthEncode_eq] at hb hc wf ⊢
  rw [← hS] at hb hc
  have hu : (coreOn p cust).update ((coreOn p cust).update h cust) (Spec.K12.lengthEncode cust.length) =
    ⟨(BlockBuffer.digestBlocks .eager 128 (h.buf.digestBlocks .eager 128 cust (updateBlocksOn p) h.core).1
        (Spec.K12.lengthEncode cust.length) (updateBlocksOn p)
        (h.buf.digestBlocks .eager 128 cust (updateBlocksOn p) h.core).2).2,
     (BlockBuffer.digestBlocks .eager 128 (h.buf.digestBlocks .eager 128 cust (updateBlocksOn p) h.core).1
        (Spec.K12.lengthEncode cust.length) (updateBlocksOn p)
        (h.buf.digestBlocks .eager 128 cust (updateBlocksOn p) h.core).2).1⟩ := rfl
  rw [hu] at wf hc hb
  generalize BlockBuffer.digestBlocks .eager 128 (h.buf.digestBlocks .eager 128 cust (updateBlocksOn p) h.core).1
        (Spec.K12.lengthEncode cust.length) (updateBlocksOn p)
        (h.buf.digestBlocks .eager 128 cust (updateBlocksOn p) h.core).2 = a at *
  obtain ⟨b, s⟩ := a
  simp only [coreOn, nFull] at wf hc hb ⊢
  have hcl := wf.length_content
  rw [← hc, ← hb, ← hcl]
  have hif : (s.bufpos = CHUNK_SIZE ∧ b.content.length ≠ 0) = (s.bufpos = CHUNK_SIZE ∧ b.content ≠ []) := by simp
  simp only [hif]
  rfl

theorem tail_of_blocks {cust S : Bytes} (s : State) (i : Inv cust s (S.take (S.length / 128 * 128))) :
    let x := S.drop (S.length / 128 * 128)
    let s' := if s.bufpos = CHUNK_SIZE ∧ x ≠ [] then processChunk s else s
    Inv cust { s' with buffer := overwrite s'.buffer s'.bufpos x, bufpos := s'.bufpos + x.length } S := by
  intro x s'
  have hle := Nat.div_mul_le_self S.length 128
  have hlen : (S.take (S.length / 128 * 128)).length = S.length / 128 * 128 := by simp; omega
  have hsplit : S.take (S.length / 128 * 128) ++ x = S := List.take_append_drop _ _
  have hxl : x.length < 128 := by
    have := Nat.mod_lt S.length (show 0 < 128 by decide)
    have := Nat.div_add_mod' S.length 128
    simp only [x, List.length_drop]; omega
  by_cases hx : x = []
  · have hs : s' = s := by simp [s', hx]
    rw [hs, hx, overwrite_nil]
    rw [hx, List.append_nil] at hsplit
    rw [hsplit] at i
    exact i
  · have hs : s' = if s.bufpos = CHUNK_SIZE then processChunk s else s := by simp [s', hx]
    have := i.step hx (by rw [hlen]; omega) (by omega) s' hs
    rw [hsplit] at this
    exact this

/-- Below `2 ^ p` chunks the counter does not wrap and the state is the one of Model/K12.lean. -/
theorem finalizeOn_inv {p : Nat} {cust M : Bytes} {h : Hasher State} (r : (coreOn p cust).Rep h M)
    (hp : (M ++ cust ++ Spec.K12.lengthEncode cust.length).length ≤ 8192 * 2 ^ p) :
    ∃ s, Inv cust s (M ++ cust ++ Spec.K12.lengthEncode cust.length) ∧ (coreOn p cust).finish h = tail s := by
  have hf := finalizeOn_blocks r _ rfl
  generalize M ++ cust ++ Spec.K12.lengthEncode cust.length = S at *
  have hle := Nat.div_mul_le_self S.length 128
  have hpp := Nat.two_pow_pos p
  have i := (Inv.new cust).updateBlocks (by simp) (blocks 128 (S.length / 128) S) (fun b hb => length_of_mem_blocks hle hb)
  rw [flatten_blocks, List.nil_append] at i
  have hlen : (S.take (S.length / 128 * 128)).length = S.length / 128 * 128 := by simp; omega
  have hch := i.chain
  rw [hlen] at hch
  rw [updateBlocksOn_eq (by rw [hch]; omega)] at hf
  have j := tail_of_blocks _ i
  generalize updateBlocks (new cust) (blocks 128 (S.length / 128) S) = s at *
  have e : (if s.bufpos = CHUNK_SIZE ∧ S.drop (S.length / 128 * 128) ≠ [] then processChunkOn p s else s) =
      if s.bufpos = CHUNK_SIZE ∧ S.drop (S.length / 128 * 128) ≠ [] then processChunk s else s := by
    split
    · next hc =>
      rw [processChunkOn_eq]
      have h1 := hc.1
      have h2 : S.length / 128 * 128 < S.length := by
        rcases Nat.lt_or_ge (S.length / 128 * 128) S.length with h | h
        · exact h
        · exact absurd (List.drop_of_length_le h) hc.2
      have h3 := i.pos
      rw [h1, hlen] at h3
      simp only [CHUNK_SIZE] at h3
      omega
    · rfl
  simp only [e] at hf
  exact ⟨_, j, hf⟩

/-! ### After the counter has wrapped -/

/-- A state whose counter is 0 and whose buffer holds `X`. -/
structure Zero (s : State) (X : Bytes) : Prop where
  len : s.buffer.length = 8192
  chain : s.chainLength = 0
  pos : s.bufpos = X.length
  data : s.buffer.take s.bufpos = X

theorem Zero.append {s : State} {X : Bytes} (z : Zero s X) (x : Bytes) (h : X.length + x.length ≤ 8192) :
    Zero { s with buffer := overwrite s.buffer s.bufpos x, bufpos := s.bufpos + x.length } (X ++ x) where
  len := by
    show (overwrite s.buffer s.bufpos x).length = 8192
    rw [length_overwrite] <;> rw [z.len]
    rw [z.pos]; omega
  chain := z.chain
  pos := by show s.bufpos + x.length = _; rw [z.pos, List.length_append]
  data := by
    show (overwrite s.buffer s.bufpos x).take (s.bufpos + x.length) = _
    rw [take_overwrite (by rw [z.len, z.pos]; omega), z.data]

/-- One more byte string: either the last chunk was full and the counter wraps, or there is room. -/
theorem Zero.step {s : State} {X : Bytes} (z : Zero s X) (p : Nat) {x : Bytes} (hx : x ≠ []) (h : X.length + x.length ≤ 8192)
    (s' : State) (hs : s' = if s.bufpos = CHUNK_SIZE then processChunkOn p s else s) :
    Zero { s' with buffer := overwrite s'.buffer s'.bufpos x, bufpos := s'.bufpos + x.length } (X ++ x) := by
  have hx0 : 0 < x.length := List.length_pos_iff.2 hx
  have : s.bufpos ≠ CHUNK_SIZE := by rw [z.pos]; simp only [CHUNK_SIZE]; omega
  rw [if_neg this] at hs
  rw [hs]
  exact z.append x h

theorem Zero.wrap {p : Nat} {s : State} (hf : s.bufpos = 8192) (hc : s.chainLength + 1 = 2 ^ p) {x : Bytes}
    (h : x.length ≤ 8192) (s' : State) (hs : s' = if s.bufpos = CHUNK_SIZE then processChunkOn p s else s) :
    Zero { s' with buffer := overwrite s'.buffer s'.bufpos x, bufpos := s'.bufpos + x.length } x := by
  rw [if_pos (show s.bufpos = CHUNK_SIZE from hf)] at hs
  have z : Zero s' [] := by
    subst hs
    refine ⟨?_, ?_, rfl, rfl⟩
    · show (List.replicate CHUNK_SIZE (0 : Byte)).length = 8192
      rw [List.length_replicate]; rfl
    · have : (processChunkOn p s).chainLength = (s.chainLength + 1) % 2 ^ p := by
        simp only [processChunkOn]; split <;> rfl
      rw [this, hc, Nat.mod_self]
  have := z.append x (by simpa using h)
  simpa using this

theorem Zero.updateBlocks {s : State} {X : Bytes} (z : Zero s X) (p : Nat) (l : List Bytes) (hl : ∀ b ∈ l, b.length = 128)
    (h : X.length + l.flatten.length ≤ 8192) : Zero (updateBlocksOn p s l) (X ++ l.flatten) := by
  induction l generalizing s X with
  | nil => simpa [updateBlocksOn] using z
  | cons b l ih =>
    have hb : b.length = 128 := hl b List.mem_cons_self
    simp only [List.flatten_cons, List.length_append] at h
    have st := z.step p (x := b) (by intro e; simp [e] at hb) (by omega) _ rfl
    rw [hb] at st
    have := ih st (fun b h => hl b (List.mem_cons_of_mem _ h)) (by rw [List.length_append]; omega)
    simpa [updateBlocksOn, updateBlockOn] using this

/-- After exactly `2 ^ p` full chunks the counter is back at 0: the hash is that of the rest alone. -/
theorem finalizeOn_wrap {p : Nat} {cust A T : Bytes} {h : Hasher State} (r : (coreOn p cust).Rep h (A ++ T))
    (hA : A.length = 8192 * 2 ^ p)
    (hT : (T ++ cust ++ Spec.K12.lengthEncode cust.length).length ≤ 8192) :
    (coreOn p cust).finish h = (Sha3.xof f12 168).reader
      ((tshk 0x07).digest (T ++ cust ++ Spec.K12.lengthEncode cust.length)) := by
  have hf := finalizeOn_blocks r (A ++ (T ++ cust ++ Spec.K12.lengthEncode cust.length)) (by simp)
  have hne : T ++ cust ++ Spec.K12.lengthEncode cust.length ≠ [] := by simp [Spec.K12.lengthEncode]
  generalize T ++ cust ++ Spec.K12.lengthEncode cust.length = R at *
  have hR : 0 < R.length := List.length_pos_iff.2 hne
  have hpp := Nat.two_pow_pos p
  have hAk : A.length = 64 * 2 ^ p * 128 := by omega
  have hn : (A ++ R).length / 128 = 64 * 2 ^ p + R.length / 128 := by rw [List.length_append]; omega
  have hb : blocks 128 ((A ++ R).length / 128) (A ++ R) = blocks 128 (64 * 2 ^ p) A ++ blocks 128 (R.length / 128) R := by
    rw [hn, blocks_append _ _ _ _ _ hAk]
  have hd : (A ++ R).drop ((A ++ R).length / 128 * 128) = R.drop (R.length / 128 * 128) := by
    rw [hn, List.drop_append, List.drop_of_length_le (by omega), List.nil_append]
    congr 1; omega
  have i := (Inv.new cust).updateBlocks (by simp) (blocks 128 (64 * 2 ^ p) A)
    (fun b hb => length_of_mem_blocks (by omega) hb)
  rw [flatten_blocks, List.nil_append, List.take_of_length_le (by omega)] at i
  have hch : (A.length - 1) / 8192 = 2 ^ p - 1 := by omega
  have hchain := i.chain
  have hpos := i.pos
  rw [hch] at hchain hpos
  have hpos' : (updateBlocks (new cust) (blocks 128 (64 * 2 ^ p) A)).bufpos = 8192 := by
    rw [hpos, hA, Nat.sub_mul]; omega
  rw [hb, hd, ← updOn_app, updateBlocksOn_eq (p := p) (s := new cust) (l := blocks 128 (64 * 2 ^ p) A)
    (by rw [hchain]; omega)] at hf
  generalize K12.updateBlocks (new cust) (blocks 128 (64 * 2 ^ p) A) = s at *
  have hle := Nat.div_mul_le_self R.length 128
  have hmod := Nat.mod_lt R.length (show 0 < 128 by decide)
  have hdm := Nat.div_add_mod' R.length 128
  -- it is enough that the final state holds R with counter 0
  have fin : ∀ t : State, Zero t R → tail t = (Sha3.xof f12 168).reader ((tshk 0x07).digest R) := by
    intro t z
    have rr := (Core.Rep.new L7).update L7 R
    rw [List.nil_append] at rr
    simp only [tail, if_pos z.chain, z.data, rr.finish L7]
  rw [hf]
  apply fin
  by_cases hz : R.length / 128 = 0
  · have hx : R.drop (R.length / 128 * 128) = R := by rw [hz]; simp
    rw [hx]
    simp only [hz, blocks, updOn_nil, ne_eq, hne, not_false_eq_true, and_true]
    exact Zero.wrap (p := p) hpos' (by omega) (by omega) _ rfl
  · obtain ⟨k, hk⟩ : ∃ k, R.length / 128 = k + 1 := ⟨R.length / 128 - 1, by omega⟩
    have hz1 : Zero (updateBlocksOn p s (blocks 128 (R.length / 128) R)) (R.take (R.length / 128 * 128)) := by
      rw [hk]
      have e : blocks 128 (k + 1) R = R.take 128 :: blocks 128 k (R.drop 128) := rfl
      have hb0 : (R.take 128).length = 128 := by simp; omega
      have w := Zero.wrap (x := R.take 128) hpos' (by omega : s.chainLength + 1 = 2 ^ p) (by omega) _ rfl
      rw [hb0] at w
      have hfl : (blocks 128 k (R.drop 128)).flatten = (R.drop 128).take (k * 128) := flatten_blocks _ _ _
      have := w.updateBlocks p (blocks 128 k (R.drop 128))
        (fun b hb => length_of_mem_blocks (by simp; omega) hb) (by rw [hfl, hb0]; simp; omega)
      rw [hfl] at this
      have e2 : R.take 128 ++ (R.drop 128).take (k * 128) = R.take ((k + 1) * 128) := by
        rw [Nat.add_mul, Nat.add_comm (k * 128), List.take_add]
      rw [e2] at this
      exact this
    generalize updateBlocksOn p s (blocks 128 (R.length / 128) R) = t at *
    have hsplit := List.take_append_drop (R.length / 128 * 128) R
    by_cases hx : R.drop (R.length / 128 * 128) = []
    · rw [hx, List.append_nil] at hsplit
      rw [hx]
      simp only [ne_eq, not_true_eq_false, and_false, if_false, overwrite_nil, List.length_nil, Nat.add_zero]
      rw [hsplit] at hz1
      exact hz1
    · have := hz1.step p hx (by rw [List.length_take, List.length_drop]; omega) _ rfl
      rw [hsplit] at this
      simp only [ne_eq, hx, not_false_eq_true, and_true]
      exact this

end K12
end Hashes
