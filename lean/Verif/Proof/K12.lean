import Verif.Proof.CShake
import Verif.Model.K12
/- KangarooTwelve's streaming chunk logic computes the tree hash. -/
namespace Hashes.K12
open Sha3 Spec.Keccak

attribute [-simp] List.reduceReplicate

theorem tlaw {d : Byte} (h : 1 ≤ d.toNat ∧ d.toNat ≤ 127) :
    (tshk d).Lawful (fun s => s.state.length = 25 ∧ s.domain = d) := by
  have hi : Turbo.new d = some ⟨zero, d⟩ := by
    unfold Turbo.new
    rw [if_pos]
    simp only [BitVec.le_def]; exact h
  exact turbo_lawful perm12 (by decide) hi

abbrev L6 := tlaw (d := 0x06) (by decide)
abbrev L7 := tlaw (d := 0x07) (by decide)
abbrev LB := tlaw (d := 0x0B) (by decide)

/-- Reading from a finished TurboSHAKE128 hasher. -/
theorem tread {d : Byte} (h : 1 ≤ d.toNat ∧ d.toNat ≤ 127) (m : Bytes) (L : Nat) :
    ((tshk d).digest m).length = 25 ∧
    ((Sha3.xof f12 168).read ((Sha3.xof f12 168).reader ((tshk d).digest m)) L).1 = turboShake 128 m d L := by
  have hi : Turbo.new d = some ⟨zero, d⟩ := by
    unfold Turbo.new
    rw [if_pos]
    simp only [BitVec.le_def]; exact h
  obtain ⟨h1, h2⟩ := turbo_digest_eq perm12 (rate := 168) (by decide) (by decide) (by decide) hi m
  refine ⟨h1, ?_⟩
  simp only [tshk]
  rw [read_eq perm12 (by decide) (by decide) h1, h2]
  have := spongeBytes_congr f12_eq 168 d m L
  rw [turboShake, show 200 - 128 / 4 = 168 from rfl, ← this, spongeBytes]

/-- Chaining value of a chunk. -/
abbrev cv (c : Bytes) : Bytes := turboShake 128 c 0x0B 32

def marker : Bytes := [0x03, 0, 0, 0, 0, 0, 0, 0]

/-- Content of the final node when `c` whole chunks (of size `cs`) of `D` have been processed. -/
def nodeN (cs : Nat) (D : Bytes) : Nat → Bytes
  | 0 => []
  | 1 => D.take cs
  | c + 2 => D.take cs ++ marker ++ ((blocks cs (c + 1) (D.drop cs)).map cv).flatten

/-- The final node after one more chunk `x` (the `c`-th, counting from 0). -/
def nodeStep (n : Bytes) (c : Nat) (x : Bytes) : Bytes :=
  if c = 0 then n ++ x else if c = 1 then n ++ marker ++ cv x else n ++ cv x

theorem nodeN_succ (cs : Nat) (D : Bytes) (c : Nat) :
    nodeN cs D (c + 1) = nodeStep (nodeN cs D c) c ((D.drop (c * cs)).take cs) := by
  rcases c with _ | _ | c
  · simp [nodeN, nodeStep]
  · simp [nodeN, nodeStep, blocks]
  · rw [nodeStep, if_neg (by omega), if_neg (by omega)]
    simp only [nodeN]
    rw [blocks_add cs (c + 1) 1]
    have e : ∀ X : Bytes, blocks cs 1 X = [X.take cs] := fun _ => rfl
    rw [e, List.map_append, List.flatten_append, List.map_singleton, List.flatten_singleton, List.drop_drop,
      show cs + (c + 1) * cs = (c + 2) * cs by rw [Nat.add_mul, Nat.add_mul]; omega,
      List.append_assoc (D.take cs ++ marker)]

theorem nodeN_append {cs : Nat} {D : Bytes} (x : Bytes) {c : Nat} (h : c * cs ≤ D.length) :
    nodeN cs (D ++ x) c = nodeN cs D c := by
  rcases c with _ | _ | c
  · rfl
  · simp only [nodeN]; rw [List.take_append_of_le_length (by omega)]
  · rw [Nat.add_mul, Nat.add_mul] at h
    simp only [nodeN]
    rw [List.take_append_of_le_length (by omega), List.drop_append_of_le_length (by omega),
      blocks_append_left _ _ _ _ (by rw [List.length_drop, Nat.add_mul]; omega)]

/-- Content of the final node when `c` whole chunks of `D` have been processed. -/
abbrev node (D : Bytes) (c : Nat) : Bytes := nodeN 8192 D c

theorem node_succ (D : Bytes) (c : Nat) : node D (c + 1) = nodeStep (node D c) c ((D.drop (c * 8192)).take 8192) :=
  nodeN_succ 8192 D c

theorem node_append {D : Bytes} (x : Bytes) {c : Nat} (h : c * 8192 ≤ D.length) : node (D ++ x) c = node D c :=
  nodeN_append x h

/-- The state has consumed exactly the bytes `D`. -/
structure Inv (cust : Bytes) (s : State) (D : Bytes) : Prop where
  cust : s.customization = cust
  len : s.buffer.length = 8192
  chain : s.chainLength = (D.length - 1) / 8192
  pos : s.bufpos = D.length - (D.length - 1) / 8192 * 8192
  data : s.buffer.take s.bufpos = D.drop ((D.length - 1) / 8192 * 8192)
  final : (tshk 0x06).Rep s.finalT (node D ((D.length - 1) / 8192))
  chainT : (tshk 0x0B).Rep s.chainT []

theorem Inv.new (cust : Bytes) : Inv cust (new cust) [] where
  cust := rfl
  len := by simp [K12.new, CHUNK_SIZE]
  chain := rfl
  pos := rfl
  data := by simp [K12.new]
  final := Core.Rep.new L6
  chainT := Core.Rep.new LB

/-- `process_chaining_chunk` appends the marker if needed and the chaining value. -/
theorem processChainingChunk_spec {s : State} {n x : Bytes} (hf : (tshk 0x06).Rep s.finalT n)
    (hc : (tshk 0x0B).Rep s.chainT []) (hx : s.buffer.take s.bufpos = x) :
    (tshk 0x06).Rep (processChainingChunk s).finalT (if s.chainLength = 1 then n ++ marker ++ cv x else n ++ cv x) ∧
    (tshk 0x0B).Rep (processChainingChunk s).chainT [] := by
  have hu := hc.update LB (s.buffer.take s.bufpos)
  rw [List.nil_append, hx] at hu
  have hr : ((Sha3.xof f12 168).read ((Sha3.xof f12 168).reader ((tshk 0x0B).finish
      ((tshk 0x0B).update s.chainT x))) 32).1 = cv x := by
    rw [hu.finish LB]; exact (tread (by decide) x 32).2
  simp only [processChainingChunk, CHAINING_VALUE_SIZE, hx, hr]
  refine ⟨?_, hu.reset LB⟩
  by_cases h : s.chainLength = 1
  · rw [if_pos h, if_pos h]; exact (hf.update L6 marker).update L6 _
  · rw [if_neg h, if_neg h]; exact hf.update L6 _

/-- `process_chunk` on a full chunk. -/
theorem processChunk_spec {s : State} {n : Bytes} (hf : (tshk 0x06).Rep s.finalT n)
    (hc : (tshk 0x0B).Rep s.chainT []) (hl : s.buffer.length = 8192) (hp : s.bufpos = 8192) :
    (tshk 0x06).Rep (processChunk s).finalT (nodeStep n s.chainLength s.buffer) ∧
    (tshk 0x0B).Rep (processChunk s).chainT [] ∧ (processChunk s).chainLength = s.chainLength + 1 ∧
    (processChunk s).buffer = List.replicate 8192 0 ∧ (processChunk s).bufpos = 0 ∧
    (processChunk s).customization = s.customization := by
  simp only [processChunk, nodeStep, CHUNK_SIZE]
  by_cases h : s.chainLength = 0
  · simp only [h, if_true]
    exact ⟨hf.update L6 _, hc, trivial, trivial, trivial, trivial⟩
  · simp only [h, if_false]
    have hx : s.buffer.take s.bufpos = s.buffer := List.take_of_length_le (by omega)
    obtain ⟨h1, h2⟩ := processChainingChunk_spec hf hc hx
    exact ⟨h1, h2, rfl, trivial, trivial, rfl⟩

/-- Appending bytes that fit after flushing a full chunk (used for blocks and for the final partial block). -/
theorem Inv.step {cust : Bytes} {s : State} {D : Bytes} (i : Inv cust s D) {x : Bytes} (hx : x ≠ [])
    (hfit : D.length - (D.length - 1) / 8192 * 8192 = 8192 ∨
      D.length - (D.length - 1) / 8192 * 8192 + x.length ≤ 8192) (hx2 : x.length ≤ 8192)
    (s' : State) (hs' : s' = if s.bufpos = CHUNK_SIZE then processChunk s else s) :
    Inv cust { s' with buffer := overwrite s'.buffer s'.bufpos x, bufpos := s'.bufpos + x.length } (D ++ x) := by
  have hx0 : 0 < x.length := List.length_pos_iff.2 hx
  have hpos := i.pos
  have hlen : (D ++ x).length = D.length + x.length := by simp
  generalize hc : (D.length - 1) / 8192 = c at *
  have hdm := Nat.div_add_mod (D.length - 1) 8192
  have hmod := Nat.mod_lt (D.length - 1) (show 0 < 8192 by decide)
  rw [hc] at hdm
  by_cases hfull : s.bufpos = CHUNK_SIZE
  · rw [if_pos hfull] at hs'
    have hfull : s.bufpos = 8192 := hfull
    have hD : D.length = (c + 1) * 8192 := by omega
    obtain ⟨h1, h2, h3, h4, h5, h6⟩ := processChunk_spec i.final i.chainT i.len hfull
    subst hs'
    have hc' : ((D ++ x).length - 1) / 8192 = c + 1 := by rw [hlen]; omega
    have hbuf : s.buffer = (D.drop (c * 8192)).take 8192 := by
      have := i.data
      rw [hc, List.take_of_length_le (by rw [i.len]; omega)] at this
      rw [this, List.take_of_length_le (by simp; omega)]
    refine ⟨by rw [← i.cust]; exact h6, ?_, ?_, ?_, ?_, ?_, h2⟩
    · show (overwrite (processChunk s).buffer (processChunk s).bufpos x).length = 8192
      rw [h4, h5, length_overwrite] <;> simp; omega
    · show (processChunk s).chainLength = _
      rw [h3, hc', i.chain, hc]
    · show (processChunk s).bufpos + x.length = _
      rw [hc', h5, hlen]; omega
    · show (overwrite (processChunk s).buffer (processChunk s).bufpos x).take ((processChunk s).bufpos + x.length) = _
      rw [hc', h4, h5, take_overwrite (by simp; omega), List.drop_append]
      rw [List.drop_of_length_le (by omega), hD]; simp
    · show (tshk 0x06).Rep (processChunk s).finalT _
      rw [hc', node_append x (by omega), node_succ, ← hbuf]
      rw [i.chain, hc] at h1
      exact h1
  · rw [if_neg hfull] at hs'
    replace hs' := hs'.symm
    subst hs'
    have hfull : s.bufpos ≠ 8192 := hfull
    have hc' : ((D ++ x).length - 1) / 8192 = c := by rw [hlen]; omega
    refine ⟨i.cust, ?_, ?_, ?_, ?_, ?_, i.chainT⟩
    · show (overwrite s.buffer s.bufpos x).length = 8192
      rw [length_overwrite] <;> rw [i.len]; omega
    · show s.chainLength = _
      rw [hc', i.chain, hc]
    · show s.bufpos + x.length = _
      rw [hc', hlen]; omega
    · show (overwrite s.buffer s.bufpos x).take (s.bufpos + x.length) = _
      rw [hc', take_overwrite (by rw [i.len]; omega), i.data, hc, List.drop_append_of_le_length (by omega)]
    · show (tshk 0x06).Rep s.finalT _
      have := i.final
      rw [hc'] 
      rw [hc] at this
      rw [node_append x (by omega)]
      exact this

theorem Inv.updateBlocks {cust : Bytes} {s : State} {D : Bytes} (i : Inv cust s D) (hD : 128 ∣ D.length)
    (l : List Bytes) (hl : ∀ b ∈ l, b.length = 128) : Inv cust (updateBlocks s l) (D ++ l.flatten) := by
  induction l generalizing s D with
  | nil => simpa [K12.updateBlocks] using i
  | cons b l ih =>
    have hb : b.length = 128 := hl b List.mem_cons_self
    have hstep := i.step (x := b) (by intro h; simp [h] at hb) (by rw [hb]; omega) (by omega) _ rfl
    rw [hb] at hstep
    have := ih hstep (by simp [hb]; omega) (fun b h => hl b (List.mem_cons_of_mem _ h))
    simpa [K12.updateBlocks, updateBlock] using this

theorem digitsLE_eq (fuel x : Nat) : digitsLE fuel x = leBytes (digits256 fuel x) x := by
  induction fuel generalizing x with
  | zero => rfl
  | succ n ih =>
    simp only [digitsLE, digits256]
    by_cases h : x = 0
    · simp [h, leBytes]
    · rw [if_pos (by omega), if_neg h, ih, Nat.add_comm, leBytes]
      congr 1
      apply BitVec.eq_of_toNat_eq
      simp

theorem lengthEncode_eq (x : Nat) : lengthEncode x = Spec.K12.lengthEncode x := by
  simp only [lengthEncode, Spec.K12.lengthEncode, digitsLE_eq, beBytes, length_leBytes]

theorem digestBlocks_congr {σ : Type} {k : BufKind} {bs : Nat} {b b' : BlockBuffer} (hbs : 0 < bs) (wf : b.WF k bs)
    (wf' : b'.WF k bs) (hc : b.content = b'.content) (input : Bytes) (f : σ → List Bytes → σ) (s : σ)
    (hnil : ∀ s, f s [] = s) (happ : ∀ s x y, f (f s x) y = f s (x ++ y)) :
    (b.digestBlocks k bs input f s).1.WF k bs ∧ (b'.digestBlocks k bs input f s).1.WF k bs ∧
    (b.digestBlocks k bs input f s).1.content = (b'.digestBlocks k bs input f s).1.content ∧
    (b.digestBlocks k bs input f s).2 = (b'.digestBlocks k bs input f s).2 := by
  obtain ⟨h1, h2, h3⟩ := BlockBuffer.digestBlocks_spec hbs wf input f s hnil happ
  obtain ⟨k1, k2, k3⟩ := BlockBuffer.digestBlocks_spec hbs wf' input f s hnil happ
  rw [← hc] at k2 k3
  exact ⟨h1, k1, by rw [h2, k2], by rw [h3, k3]⟩

theorem upd_nil (s : State) : updateBlocks s [] = s := rfl
theorem upd_app (s : State) (x y : List Bytes) : updateBlocks (updateBlocks s x) y = updateBlocks s (x ++ y) := by
  simp [updateBlocks]

theorem cust_processChunk (s : State) : (processChunk s).customization = s.customization := by
  simp only [processChunk]; split <;> rfl

theorem cust_updateBlocks (s : State) (l : List Bytes) : (updateBlocks s l).customization = s.customization := by
  induction l generalizing s with
  | nil => rfl
  | cons b l ih =>
    rw [updateBlocks, List.foldl_cons]
    have := ih (updateBlock s b)
    rw [updateBlocks] at this
    rw [this]
    simp only [updateBlock]
    split
    · exact cust_processChunk s
    · rfl

theorem lawful (cust : Bytes) : (core cust).Lawful (fun s => s.customization = cust) where
  bs_pos := (by decide : 0 < 128)
  nil := upd_nil
  app := upd_app
  inv_init := rfl
  inv_update := fun s x _ h => by rw [← h]; exact cust_updateBlocks s x
  reset_eq := fun s h => by simp only [core, h]
  fin_congr := fun s b b' h h' hc => by
    simp only [core] at h h' ⊢
    simp only [finalize]
    obtain ⟨a1, a2, a3, a4⟩ := digestBlocks_congr (by decide) h h' hc s.customization updateBlocks s upd_nil upd_app
    rw [← a4]
    obtain ⟨c1, c2, c3, c4⟩ := digestBlocks_congr (by decide) a1 a2 a3 (lengthEncode s.customization.length)
      updateBlocks (b.digestBlocks .eager 128 s.customization updateBlocks s).2 upd_nil upd_app
    rw [← c4, ← c3, ← pos_congr c1 c2 c3]

theorem overwrite_nil (d : Bytes) (n : Nat) : overwrite d n [] = d := by
  simp [overwrite]

/-- The last part of `finalize_xof_core`, on a state that has consumed exactly `S`. -/
def tail (s : State) : Reader Lanes :=
  if s.chainLength = 0 then
    (Sha3.xof f12 168).reader ((tshk 0x07).finish ((tshk 0x07).update (tshk 0x07).new (s.buffer.take s.bufpos)))
  else
    let s := processChainingChunk s
    let final := (tshk 0x06).update s.finalT (lengthEncode s.chainLength)
    let final := (tshk 0x06).update final [0xff, 0xff]
    (Sha3.xof f12 168).reader ((tshk 0x06).finish final)

/-- `finalize_xof_core` brings the state to "has consumed M ‖ C ‖ length_encode(|C|)". -/
theorem finalize_inv {cust M : Bytes} {h : Hasher State} (r : (core cust).Rep h M) :
    ∃ s, Inv cust s (M ++ cust ++ Spec.K12.lengthEncode cust.length) ∧ (core cust).finish h = tail s := by
  have L := lawful cust
  have hcust : h.core.customization = cust := r.invariant L
  have r2 := (r.update L cust).update L (lengthEncode cust.length)
  simp only [Core.finish, core, finalize, hcust]
  obtain ⟨wf, hc, hb⟩ := r2
  rw [lengthEncode_eq] at hb hc wf ⊢
  generalize M ++ cust ++ Spec.K12.lengthEncode cust.length = S at *
  have hu : (core cust).update ((core cust).update h cust) (Spec.K12.lengthEncode cust.length) =
    ⟨(BlockBuffer.digestBlocks .eager 128 (h.buf.digestBlocks .eager 128 cust updateBlocks h.core).1
        (Spec.K12.lengthEncode cust.length) updateBlocks (h.buf.digestBlocks .eager 128 cust updateBlocks h.core).2).2,
     (BlockBuffer.digestBlocks .eager 128 (h.buf.digestBlocks .eager 128 cust updateBlocks h.core).1
        (Spec.K12.lengthEncode cust.length) updateBlocks (h.buf.digestBlocks .eager 128 cust updateBlocks h.core).2).1⟩ := rfl
  rw [hu] at wf hc hb
  generalize BlockBuffer.digestBlocks .eager 128 (h.buf.digestBlocks .eager 128 cust updateBlocks h.core).1
        (Spec.K12.lengthEncode cust.length) updateBlocks (h.buf.digestBlocks .eager 128 cust updateBlocks h.core).2 = a at *
  obtain ⟨b, s⟩ := a
  simp only [core, nFull] at wf hc hb ⊢
  have hle := Nat.div_mul_le_self S.length 128
  have hI : Inv cust s (S.take (S.length / 128 * 128)) := by
    have := (Inv.new cust).updateBlocks (by simp) (blocks 128 (S.length / 128) S)
      (fun b hb => length_of_mem_blocks hle hb)
    rw [flatten_blocks, List.nil_append] at this
    rw [hc]; exact this
  have hlen : (S.take (S.length / 128 * 128)).length = S.length / 128 * 128 := by simp; omega
  have hcl := wf.length_content
  by_cases hp : b.pos = 0
  · have hx : b.content = [] := by
      apply List.eq_nil_of_length_eq_zero; omega
    refine ⟨s, ?_, ?_⟩
    · rw [hb] at hx
      have : S.take (S.length / 128 * 128) = S := by
        have := List.take_append_drop (S.length / 128 * 128) S
        rw [hx, List.append_nil] at this
        exact this
      rw [this] at hI
      exact hI
    · have hif : ¬ (s.bufpos = CHUNK_SIZE ∧ b.pos ≠ 0) := by simp [hp]
      simp only [if_neg hif]
      simp only [hx, overwrite_nil, hp, Nat.add_zero]
      rfl
  · have hx : b.content ≠ [] := by intro h; rw [h] at hcl; simp at hcl; omega
    have hlt : b.pos < 128 := wf.2
    have hif : (s.bufpos = CHUNK_SIZE ∧ b.pos ≠ 0) = (s.bufpos = CHUNK_SIZE) := by simp [hp]
    have := hI.step hx (by rw [hlen, hcl]; omega) (by omega) _ rfl
    rw [hb, List.take_append_drop, ← hb] at this
    refine ⟨_, this, ?_⟩
    simp only [hif, hcl]
    rfl

theorem tail_eq {cust S : Bytes} {s : State} (i : Inv cust s S) (hS : S ≠ []) :
    ∃ (d : Byte) (X : Bytes), 1 ≤ d.toNat ∧ d.toNat ≤ 127 ∧ tail s = (Sha3.xof f12 168).reader ((tshk d).digest X) ∧
      ∀ L, turboShake 128 X d L = if S.length ≤ 8192 then turboShake 128 S 0x07 L else
        match Spec.K12.cut S with
        | [] => []
        | S0 :: rest => turboShake 128 (S0 ++ [0x03, 0, 0, 0, 0, 0, 0, 0] ++ (rest.map cv).flatten ++
            Spec.K12.lengthEncode rest.length ++ [0xff, 0xff]) 0x06 L := by
  have h0 : 0 < S.length := List.length_pos_iff.2 hS
  simp only [tail]
  by_cases hc : s.chainLength = 0
  · rw [if_pos hc]
    have := i.chain
    have hc0 : (S.length - 1) / 8192 = 0 := by omega
    have hd := i.data
    rw [hc0, Nat.zero_mul, List.drop_zero] at hd
    refine ⟨0x07, S, by decide, by decide, ?_, ?_⟩
    · have r := (Core.Rep.new L7).update L7 (s.buffer.take s.bufpos)
      rw [List.nil_append, hd] at r
      rw [hd, r.finish L7]
    · intro L
      rw [if_pos (show S.length ≤ 8192 by omega)]
  · rw [if_neg hc]
    have hch := i.chain
    obtain ⟨c, hcc⟩ : ∃ c, (S.length - 1) / 8192 = c + 1 := ⟨(S.length - 1) / 8192 - 1, by omega⟩
    obtain ⟨h1, -⟩ := processChainingChunk_spec i.final i.chainT i.data
    have hpc : (processChainingChunk s).chainLength = s.chainLength := rfl
    have h2 := (h1.update L6 (lengthEncode (processChainingChunk s).chainLength)).update L6 [0xff, 0xff]
    refine ⟨0x06, _, by decide, by decide, congrArg _ (h2.finish L6), ?_⟩
    intro L
    rw [if_neg (show ¬ S.length ≤ 8192 by omega), hpc, hch, hcc, lengthEncode_eq]
    simp only [Spec.K12.cut, hcc, blocks, List.cons_append, List.map_append, List.flatten_append, List.map_cons,
      List.map_nil, List.flatten_cons, List.flatten_nil, List.append_nil, List.length_append, length_blocks,
      List.length_cons, List.length_nil]
    congr 1
    cases c with
    | zero =>
      rw [if_pos rfl]
      simp only [node, nodeN, blocks, List.map_nil, List.flatten_nil, List.nil_append, List.append_assoc]
      rfl
    | succ c =>
      rw [if_neg (by omega)]
      simp only [node, nodeN, List.append_assoc]
      rfl

/-- Reading `L` bytes through the K12 reader wrapper. -/
theorem xof_lawful : xof.Lawful ((Sha3.xof f12 168).WF (fun s => s.length = 25)) where
  bs_pos := by decide
  len := fun r h => (XofCore.read_spec (Sha3.xof_lawful perm12 (by decide) (by decide)) h 168).1
  next := fun r h => (XofCore.read_spec (Sha3.xof_lawful perm12 (by decide) (by decide)) h 168).2.1

theorem stream_reads (k : Nat) (r : Reader Lanes) :
    xof.readBlocks k r = (Sha3.xof f12 168).reads r (List.replicate k 168) := by
  induction k generalizing r with
  | zero => rfl
  | succ k ih => rw [List.replicate_succ]; simp only [XofCore.readBlocks, XofCore.reads, ih]; rfl

theorem xof_reads {s : Lanes} (h : s.length = 25) (sizes : List Nat) :
    (xof.reads (xof.reader ((Sha3.xof f12 168).reader s)) sizes).1 =
      ((Sha3.xof f12 168).read ((Sha3.xof f12 168).reader s) sizes.sum).1 := by
  have Li := Sha3.xof_lawful perm12 (rate := 168) (by decide) (by decide)
  have wf := XofCore.WF.reader (x := Sha3.xof f12 168) (inv := fun s => s.length = 25) h
  rw [XofCore.reads_eq xof_lawful wf]
  rw [XofCore.read_eq xof_lawful wf _ (sizes.sum) (by show _ ≤ _ * 168; omega)]
  show List.take _ (xof.readBlocks _ _).1 = _
  rw [stream_reads, XofCore.reads_eq Li h]
  have hp := XofCore.read_prefix Li wf (n := sizes.sum) (m := (List.replicate sizes.sum 168).sum)
    (by simp only [List.sum_replicate_nat]; omega)
  obtain ⟨t, ht⟩ := hp
  rw [← ht, List.take_left' (XofCore.read_spec Li wf _).1]

end Hashes.K12
