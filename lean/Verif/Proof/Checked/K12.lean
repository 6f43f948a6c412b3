import Verif.Proof.Rust
import Verif.Proof.Checked.Digest
import Verif.Proof.Checked.Keccak
import Verif.Proof.K12
import Verif.Proof.XofC
import Verif.Checked.K12
/- The checked transcription of KangarooTwelve agrees with the model as long as the number of chunks fits in a `usize`, and panics otherwise. -/
namespace Hashes.K12
open Rs Sha3

attribute [-simp] List.reduceReplicate

/-! ### The TurboSHAKE128 hashers inside -/

theorem tnewC_eq {d : Byte} (h : 1 ≤ d.toNat ∧ d.toNat ≤ 127) : tnewC d = some (tshk d).new :=
  bind_ok (bind_ok (check_of (by simp only [BitVec.le_def]; exact h)) rfl) rfl

theorem tupdateC_eq {d : Byte} (hd : 1 ≤ d.toNat ∧ d.toNat ≤ 127) {h : Hasher Turbo} {m : Bytes} (r : (tshk d).Rep h m) (x : Bytes) :
    tupdateC h x = some ((tshk d).update h x) := by
  have wf : h.buf.WF .eager 168 := r.1
  have L := tlaw hd
  obtain ⟨-, -, h3⟩ := BlockBuffer.digestBlocks_spec (by decide) wf x (tshk d).updateBlocks h.core L.nil L.app
  have e := digestBlocks_some (by decide) wf x (turboC f12 168 h.core.domain).updateBlocks (tshk d).updateBlocks h.core (fun _ => rfl)
    (fun s a b => by
      show ((a.foldlM (absorbBlockC f12) s.state).bind fun st => some { s with state := st }).bind
        (fun t => (b.foldlM (absorbBlockC f12) t.state).bind fun st => some { t with state := st }) =
        ((a ++ b).foldlM (absorbBlockC f12) s.state).bind fun st => some { s with state := st }
      rw [List.foldlM_append]
      show _ = ((a.foldlM (absorbBlockC f12) s.state).bind fun t => b.foldlM (absorbBlockC f12) t).bind _
      cases a.foldlM (absorbBlockC f12) s.state <;> rfl)
  have u : (turboC f12 168 h.core.domain).updateBlocks h.core (blocks 168 (nFull .eager 168 (h.buf.content ++ x).length) (h.buf.content ++ x)) =
      some ((tshk d).updateBlocks h.core (blocks 168 (nFull .eager 168 (h.buf.content ++ x).length) (h.buf.content ++ x))) :=
    bind_ok (foldlM_absorb f12 rfl _ (mem_blocks_length (by rw [nFull]; exact Nat.mul_div_le _ _)) _) rfl
  rw [u, ← h3] at e
  have e' : (turboC f12 168 h.core.domain).updateC (h.core, h.buf) x =
      some (((tshk d).update h x).core, ((tshk d).update h x).buf) := by
    refine bind_ok (congrArg Prod.snd e) ?_
    show some _ = some _
    congr 1
    exact Prod.ext rfl (congrArg Prod.fst e)
  exact bind_ok e' rfl

theorem treaderC_eq {d : Byte} (hd : 1 ≤ d.toNat ∧ d.toNat ≤ 127) {h : Hasher Turbo} {m : Bytes} (r : (tshk d).Rep h m) :
    treaderC h = some ((Sha3.xof f12 168).reader ((tshk d).finish h), (tshk d).resetH h) := by
  have wf : h.buf.WF .eager 168 := r.1
  have hi := r.invariant (tlaw hd)
  refine bind_ok (finalizeXofC_eq f12 rfl h.core.domain h.core.state wf.1 wf.2) ?_
  have hn : (turboC f12 168 h.core.domain).init = some ((tshk d).reset h.core) := by
    rw [(tlaw hd).reset_eq _ hi, hi.2]
    exact bind_ok (check_of (by simp only [BitVec.le_def]; exact hd)) rfl
  exact bind_ok (bind_ok hn rfl) rfl

theorem newC_eq (cust : Bytes) : newC cust = some (new cust) :=
  bind_ok (tnewC_eq (by decide)) <| bind_ok (tnewC_eq (by decide)) rfl

theorem lengthLoopC_eq (k : Nat) : ∀ (f g : Nat) (buf : Bytes) (pos len : Nat), len < 256 ^ k → len < 256 ^ g → k < f →
    pos + k ≤ buf.length →
    lengthLoopC f buf pos len = some (overwrite buf pos (digitsLE g len), pos + (digitsLE g len).length) := by
  induction k with
  | zero =>
    intro f g buf pos len h1 h2 h3 h4
    obtain rfl : len = 0 := by omega
    obtain ⟨f, rfl⟩ : ∃ n, f = n + 1 := ⟨f - 1, by omega⟩
    have : digitsLE g 0 = [] := by cases g <;> simp [digitsLE]
    rw [this, overwrite_nil]; rfl
  | succ k ih =>
    intro f g buf pos len h1 h2 h3 h4
    obtain ⟨f, rfl⟩ : ∃ n, f = n + 1 := ⟨f - 1, by omega⟩
    rw [lengthLoopC]
    by_cases h0 : 0 < len
    · obtain ⟨g, rfl⟩ : ∃ n, g = n + 1 := ⟨g - 1, by
        rcases g with _ | g
        · omega
        · omega⟩
      rw [if_pos h0, digitsLE, if_pos h0]
      refine bind_ok (upd_lt (by omega)) ?_
      rw [ih f g _ (pos + 1) (len / 256) (by rw [Nat.pow_succ] at h1; omega) (by rw [Nat.pow_succ] at h2; omega) (by omega)
        (by simp; omega)]
      congr 2
      · simp only [overwrite, List.length_cons]
        have : (buf.set pos (BitVec.ofNat 8 (len % 256))).take (pos + 1) = buf.take pos ++ [BitVec.ofNat 8 (len % 256)] := by
          rw [List.take_succ_eq_append_getElem (by simp; omega), List.take_set_of_le (Nat.le_refl _)]
          simp
        rw [this, List.drop_set_of_lt (by omega)]
        simp [Nat.add_assoc, Nat.add_comm]
      · simp; omega
    · rw [if_neg h0]
      have : digitsLE g len = [] := by cases g <;> simp [digitsLE]; omega
      rw [this, overwrite_nil]; rfl

theorem length_digitsLE (k : Nat) : ∀ (g len : Nat), len < 256 ^ k → (digitsLE g len).length ≤ k := by
  induction k with
  | zero => intro g len h; obtain rfl : len = 0 := by omega
            cases g <;> simp [digitsLE]
  | succ k ih =>
    intro g len h
    cases g with
    | zero => simp [digitsLE]
    | succ g =>
      rw [digitsLE]
      split
      · have := ih g (len / 256) (by rw [Nat.pow_succ] at h; omega)
        simp; omega
      · simp

theorem lt_256_pow (n : Nat) : n < 256 ^ n := Nat.lt_pow_self (by decide)

/-- `length_encode` on any scratch array of 255 bytes, for every 64-bit length. -/
theorem lengthEncodeC_eq {len : Nat} (h : len < 2 ^ 64) {buf : Bytes} (hb : buf.length = 255) :
    ∃ buf', buf'.length = 255 ∧ lengthEncodeC len buf = some (buf', lengthEncode len) := by
  have h8 : len < 256 ^ 8 := by simpa using h
  have hd := length_digitsLE 8 len len h8
  have e := lengthLoopC_eq 8 256 len buf 0 len h8 (lt_256_pow len) (by decide) (by omega)
  generalize hD : digitsLE len len = d at hd e
  have ho : overwrite buf 0 d = d ++ buf.drop d.length := by simp [overwrite]
  rw [ho, Nat.zero_add] at e
  have hs : slice (d ++ buf.drop d.length) 0 d.length = some d := by
    rw [slice_le (by omega) (by simp)]; simp
  have hc : copy (d ++ buf.drop d.length) 0 d.length d.reverse = some (d.reverse ++ buf.drop d.length) := by
    rw [copy_le (by omega) (by simp) (by simp)]; simp
  have hu : upd (d.reverse ++ buf.drop d.length) d.length (BitVec.ofNat 8 d.length) =
      some (d.reverse ++ ([BitVec.ofNat 8 d.length] ++ buf.drop (d.length + 1))) := by
    rw [upd_lt (by simp; omega)]
    congr 1
    rw [List.drop_eq_getElem_cons (by omega), List.set_append_right _ _ (by simp), List.length_reverse, Nat.sub_self,
      List.set_cons_zero]
    rfl
  refine ⟨d.reverse ++ ([BitVec.ofNat 8 d.length] ++ buf.drop (d.length + 1)), by simp; omega, ?_⟩
  refine bind_ok e <| bind_ok hs <| bind_ok hc <| bind_ok hu <| bind_ok (slice_le (by omega) (by simp)) ?_
  rw [lengthEncode, hD]
  congr 2
  rw [List.drop_zero, Nat.sub_zero, ← List.append_assoc, List.take_append_of_le_length (by simp),
    List.take_of_length_le (by simp)]

theorem processChainingChunkC_eq {s : State} {n : Bytes} (hf : (tshk 0x06).Rep s.finalT n) (hc : (tshk 0x0B).Rep s.chainT [])
    (h0 : s.bufpos ≠ 0) (h : s.bufpos ≤ s.buffer.length) :
    processChainingChunkC s = some (processChainingChunk s) := by
  have e1 : ∃ t m, markerC s = some t ∧ (tshk 0x06).Rep t m ∧
      t = if s.chainLength = 1 then (tshk 0x06).update s.finalT [0x03, 0, 0, 0, 0, 0, 0, 0] else s.finalT := by
    rw [markerC]
    split
    · exact ⟨_, _, tupdateC_eq (by decide) hf _, hf.update L6 _, rfl⟩
    · exact ⟨_, _, rfl, hf, rfl⟩
  obtain ⟨t, m, e1, ht, he⟩ := e1
  have hu := hc.update LB (s.buffer.take s.bufpos)
  refine bind_ok (check_of h0) <| bind_ok e1 <| bind_ok (slice_le (by omega) h) ?_
  rw [List.drop_zero, Nat.sub_zero]
  refine bind_ok (tupdateC_eq (by decide) hc _) <| bind_ok (treaderC_eq (by decide) hu) ?_
  have hl := (tread (d := 0x0B) (by decide) ([] ++ s.buffer.take s.bufpos) 0).1
  rw [← hu.finish LB] at hl
  have er := XofC.readC_eq (Sha3.xof_lawful perm12 (rate := 168) (by decide) (by decide)) (Sha3.xofC_of (by decide))
    (XofCore.WF.reader hl) (List.replicate CHAINING_VALUE_SIZE (0 : Byte))
  rw [List.length_replicate] at er
  refine bind_ok er <| bind_ok (tupdateC_eq (by decide) ht _) ?_
  rw [he]; rfl

theorem chunkC_eq {s : State} {n : Bytes} (hf : (tshk 0x06).Rep s.finalT n) (hc : (tshk 0x0B).Rep s.chainT [])
    (hp : s.bufpos = 8192) (hl : s.buffer.length = 8192) :
    chunkC s = some (if s.chainLength = 0 then { s with finalT := (tshk 0x06).update s.finalT s.buffer } else processChainingChunk s) := by
  rw [chunkC]
  split
  · exact bind_ok (tupdateC_eq (by decide) hf _) rfl
  · exact processChainingChunkC_eq hf hc (by omega) (by omega)

/-- The number of chunks is kept in a `usize`. -/
theorem processChunkC_eq {s : State} {n : Bytes} (hf : (tshk 0x06).Rep s.finalT n) (hc : (tshk 0x0B).Rep s.chainT [])
    (hp : s.bufpos = 8192) (hl : s.buffer.length = 8192) :
    processChunkC s = if s.chainLength + 1 < 2 ^ 64 then some (processChunk s) else none := by
  refine (bind_ok (check_of hp) <| bind_ok (chunkC_eq hf hc hp hl) rfl).trans ?_
  have e : (if s.chainLength = 0 then { s with finalT := (tshk 0x06).update s.finalT s.buffer } else processChainingChunk s).chainLength =
      s.chainLength := by split <;> rfl
  rw [processChunk, e]
  by_cases h : s.chainLength + 1 < 2 ^ 64
  · rw [if_pos h]; exact bind_ok (check_of h) rfl
  · rw [if_neg h, check, if_neg h]; rfl

theorem flushC_eq {s : State} {n : Bytes} (p : Prop) [Decidable p] (hf : (tshk 0x06).Rep s.finalT n) (hc : (tshk 0x0B).Rep s.chainT [])
    (hp : p → s.bufpos = 8192) (hl : s.buffer.length = 8192) :
    flushC p s = if p → s.chainLength + 1 < 2 ^ 64 then some (if p then processChunk s else s) else none := by
  rw [flushC]
  by_cases h : p
  · rw [if_pos h, if_pos h, processChunkC_eq hf hc (hp h) hl]
    exact ite_congr (by simp [h]) (fun _ => rfl) (fun _ => rfl)
  · rw [if_neg h, if_neg h, if_pos (fun x => absurd x h)]; rfl

theorem appendC_eq {s : State} {n : Nat} {x : Bytes} (hx : x.length = n) (h : s.bufpos + n ≤ s.buffer.length) :
    appendC s n x = some { s with buffer := overwrite s.buffer s.bufpos x, bufpos := s.bufpos + n } := by
  refine bind_ok (copy_le (by omega) h (by omega)) ?_
  rw [overwrite, hx]
  rfl

/-- Flushing leaves room for a block. -/
theorem room {s : State} (p : Prop) [Decidable p] (hl : s.buffer.length = 8192) {n : Nat} (hn : n ≤ 8192)
    (h : ¬ p → s.bufpos + n ≤ 8192) :
    (if p then processChunk s else s).bufpos + n ≤ (if p then processChunk s else s).buffer.length := by
  by_cases hp : p
  · simp only [if_pos hp, processChunk, List.length_replicate, CHUNK_SIZE]; omega
  · simp only [if_neg hp]; rw [hl]; exact h hp

theorem updateBlockC_eq {cust D : Bytes} {s : State} (i : Inv cust s D) (hD : 128 ∣ D.length) (hle : D.length ≤ 2 ^ 77)
    {b : Bytes} (hb : b.length = 128) : updateBlockC s b = if D.length < 2 ^ 77 then some (updateBlock s b) else none := by
  have hc := i.chain
  have hp := i.pos
  have hfl := flushC_eq (s.bufpos = CHUNK_SIZE) i.final i.chainT id i.len
  by_cases hlt : D.length < 2 ^ 77
  · rw [if_pos hlt]
    rw [if_pos (by intro (h : s.bufpos = 8192); omega)] at hfl
    refine bind_ok hfl (appendC_eq hb (room _ i.len (by decide) ?_))
    intro (h : s.bufpos ≠ 8192)
    omega
  · rw [if_neg hlt]
    rw [if_neg (by intro h; have := h (show s.bufpos = 8192 by omega); omega)] at hfl
    rw [updateBlockC, hfl]; rfl

theorem updateBlocksC_eq {cust : Bytes} (l : List Bytes) : ∀ {s : State} {D : Bytes}, Inv cust s D → 128 ∣ D.length →
    (∀ b ∈ l, b.length = 128) → D.length ≤ 2 ^ 77 →
    updateBlocksC s l = if D.length + 128 * l.length ≤ 2 ^ 77 then some (updateBlocks s l) else none := by
  induction l with
  | nil => intro s D i hD hl hle; rw [if_pos (by simpa using hle)]; rfl
  | cons b l ih =>
    intro s D i hD hl hle
    have hb := hl b List.mem_cons_self
    rw [List.length_cons]
    have i' := i.updateBlocks hD [b] (by simpa using hb)
    have e := updateBlockC_eq i hD hle hb
    rw [updateBlocksC, List.foldlM_cons, e]
    by_cases hlt : D.length < 2 ^ 77
    · rw [if_pos hlt]
      have hlen : (D ++ [b].flatten).length = D.length + 128 := by simp [hb]
      have := ih i' (by rw [hlen]; omega) (fun c hc => hl c (List.mem_cons_of_mem _ hc)) (by rw [hlen]; omega)
      rw [hlen, show D.length + 128 + 128 * l.length = D.length + 128 * (l.length + 1) by omega] at this
      exact this
    · rw [if_neg hlt, if_neg (by omega)]; rfl

theorem Inv.of_rep {cust M : Bytes} {h : Hasher State} (r : (core cust).Rep h M) : Inv cust h.core (M.take (M.length / 128 * 128)) := by
  obtain ⟨-, hc, -⟩ := r
  have hle := Nat.div_mul_le_self M.length 128
  have := (Inv.new cust).updateBlocks (by simp) (blocks 128 (M.length / 128) M) (fun b hb => length_of_mem_blocks hle hb)
  rw [flatten_blocks, List.nil_append] at this
  rw [hc]; exact this

/-- One `update`: it panics when a chunk beyond the `2^64`-th has to be begun. -/
theorem digestC_eq {cust M : Bytes} {h : Hasher State} (r : (core cust).Rep h M) (hM : M.length < 2 ^ 77 + 128) (input : Bytes) :
    digestC h.core h.buf input = (((core cust).update h input).buf,
      if M.length + input.length < 2 ^ 77 + 128 then some ((core cust).update h input).core else none) := by
  have hI := Inv.of_rep r
  obtain ⟨wf, hc, hb⟩ := r
  simp only [core, nFull] at wf hc hb
  have hle := Nat.div_mul_le_self M.length 128
  obtain ⟨-, -, h3⟩ := BlockBuffer.digestBlocks_spec (by decide) wf input updateBlocks h.core upd_nil upd_app
  rw [digestC, digestBlocks_some (by decide) wf input updateBlocksC updateBlocks h.core (fun _ => rfl)
    (fun s x y => by simp only [updateBlocksC]; rw [List.foldlM_append]; rfl)]
  refine Prod.ext rfl ?_
  have e : ((core cust).update h input).core = _ := h3
  rw [e]
  have hml : (h.buf.content ++ input).length + M.length / 128 * 128 = M.length + input.length := by
    rw [hb]; simp only [List.length_append, List.length_drop]; omega
  have hk2 : nFull .eager 128 (h.buf.content ++ input).length = (h.buf.content ++ input).length / 128 := rfl
  have hle2 := Nat.div_mul_le_self (h.buf.content ++ input).length 128
  rw [hk2]
  have hlt2 : (M.take (M.length / 128 * 128)).length = M.length / 128 * 128 := List.length_take_of_le hle
  show updateBlocksC _ _ = _
  rw [updateBlocksC_eq _ hI (by rw [hlt2]; exact Nat.dvd_mul_left _ _) (fun b hb => length_of_mem_blocks hle2 hb) (by rw [hlt2]; omega),
    hlt2, length_blocks]
  exact ite_congr (propext (by omega)) (fun _ => rfl) (fun _ => rfl)

/-- The part of `finalize_xof_core` after the two `digest_blocks`. -/
def last (s : State) (buffer : BlockBuffer) : Reader Lanes :=
  let s := if s.bufpos = CHUNK_SIZE ∧ buffer.pos ≠ 0 then processChunk s else s
  tail { s with buffer := overwrite s.buffer s.bufpos buffer.content, bufpos := s.bufpos + buffer.pos }

theorem finalize_last (s : State) (buffer : BlockBuffer) : finalize s buffer =
    (fun (a : BlockBuffer × State) => last a.2 a.1) ((fun (a : BlockBuffer × State) =>
      a.1.digestBlocks .eager 128 (lengthEncode s.customization.length) updateBlocks a.2)
      (buffer.digestBlocks .eager 128 s.customization updateBlocks s)) := by
  unfold finalize last tail
  with_reducible rfl

theorem tailC_eq {cust D : Bytes} {s : State} (i : Inv cust s D) (hle : D.length ≤ 2 ^ 77) {lenbuf : Bytes} (hl : lenbuf.length = 255) :
    tailC s lenbuf = some (tail s) := by
  have hp := i.pos
  have hc := i.chain
  have hn := i.len
  rw [tailC, tail]
  split
  · refine bind_ok (tnewC_eq (by decide)) <| bind_ok (slice_le (by omega) (by omega)) ?_
    rw [List.drop_zero, Nat.sub_zero]
    exact bind_ok (tupdateC_eq (by decide) (Core.Rep.new L7) _) <| bind_ok (treaderC_eq (by decide) ((Core.Rep.new L7).update L7 _)) rfl
  · rename_i h0
    obtain ⟨b, -, e⟩ := lengthEncodeC_eq (len := s.chainLength) (by omega) hl
    have r := (processChainingChunk_spec i.final i.chainT rfl).1
    have r1 := r.update L6 (lengthEncode s.chainLength)
    have r2 := r1.update L6 [0xff, 0xff]
    exact bind_ok (processChainingChunkC_eq i.final i.chainT (by omega) (by omega)) <| bind_ok e <| bind_ok (tupdateC_eq (by decide) r _) <|
      bind_ok (tupdateC_eq (by decide) r1 _) <| bind_ok (treaderC_eq (by decide) r2) rfl

/-- Finalization of every hasher reached from `new` by updates: it panics exactly if message, customization string and its encoded length
need more than `2^64` chunks. -/
theorem finalizeC_eq {cust M : Bytes} {h : Hasher State} (r : (core cust).Rep h M) (hM : M.length < 2 ^ 77 + 128)
    (hcl : cust.length < 2 ^ 64) :
    finalizeC h.core h.buf = if M.length + cust.length + (lengthEncode cust.length).length ≤ 2 ^ 77 then some ((core cust).finish h) else none := by
  have L := lawful cust
  have hcust : h.core.customization = cust := r.invariant L
  have r1 := r.update L cust
  have hcust1 : ((core cust).update h cust).core.customization = cust := r1.invariant L
  have r2 := r1.update L (lengthEncode cust.length)
  obtain ⟨b1, hb1, e1⟩ := lengthEncodeC_eq (len := cust.length) hcl (buf := List.replicate 255 0) (by simp)
  have d1 := digestC_eq r hM cust
  rw [finalizeC, hcust]
  rcases (Nat.lt_or_ge (M.length + cust.length) (2 ^ 77 + 128)).symm with hlt1 | hlt1
  · rw [if_neg (by omega), d1, if_neg (by omega)]; rfl
  rw [if_pos hlt1] at d1
  have d2 := digestC_eq r1 (by simpa using hlt1) (lengthEncode cust.length)
  have hS : (M ++ cust ++ lengthEncode cust.length).length = M.length + cust.length + (lengthEncode cust.length).length := by
    rw [List.length_append, List.length_append]
  rw [List.length_append] at d2
  have d2' := d2
  rw [show ((core cust).update h cust).buf = (digestC h.core h.buf cust).1 by rw [d1]] at d2'
  refine bind_ok (congrArg Prod.snd d1) ?_
  rw [hcust1]
  refine bind_ok e1 ?_
  rcases (Nat.lt_or_ge (M.length + cust.length + (lengthEncode cust.length).length) (2 ^ 77 + 128)).symm with hlt2 | hlt2
  · rw [if_neg (by omega)]
    dsimp only
    rw [d2', if_neg (by omega)]; rfl
  rw [if_pos hlt2] at d2'
  refine bind_ok (congrArg Prod.snd d2') ?_
  simp only [d2']
  have hfin : (core cust).finish h = last
      ((core cust).update ((core cust).update h cust) (lengthEncode cust.length)).core
      ((core cust).update ((core cust).update h cust) (lengthEncode cust.length)).buf := by
    show finalize h.core h.buf = _
    rw [finalize_last, hcust]
    simp only [Core.update, core]
  rw [hfin, last]
  clear hfin d2 d1 d2' e1
  rw [← hS] at hlt2 ⊢
  generalize (core cust).update ((core cust).update h cust) (lengthEncode cust.length) = h2 at r2
  generalize M ++ cust ++ lengthEncode cust.length = S at r2 hS hlt2
  have hI := Inv.of_rep r2
  obtain ⟨s, b⟩ := h2
  obtain ⟨wf, hc, hb⟩ := r2
  simp only [core, nFull] at wf hc hb hI ⊢
  have hlen : (S.take (S.length / 128 * 128)).length = S.length / 128 * 128 := by simp; omega
  have hcl := wf.length_content
  have hbp : b.pos < 128 := wf.2
  have hbp' : b.pos = S.length % 128 := by
    rw [← hcl, hb, List.length_drop]; omega
  have hpos := hI.pos
  have hch := hI.chain
  rw [hlen] at hpos hch
  have hfl := flushC_eq (s.bufpos = CHUNK_SIZE ∧ b.pos ≠ 0) hI.final hI.chainT (fun h => h.1) hI.len
  rcases (Nat.lt_or_ge (2 ^ 77) S.length) with hSle | hSle
  · rw [if_neg (by intro h; have := h ⟨show s.bufpos = 8192 by omega, by omega⟩; omega)] at hfl
    rw [if_neg (by omega), hfl]; rfl
  rw [if_pos (by rintro ⟨h, h'⟩; have h : s.bufpos = 8192 := h; omega)] at hfl
  rw [if_pos hSle]
  refine bind_ok hfl <| bind_ok (appendC_eq hcl (room _ hI.len (by omega) ?_)) ?_
  · intro h
    have h : ¬ (s.bufpos = 8192 ∧ b.pos ≠ 0) := h
    omega
  · by_cases hp : b.pos = 0
    · have hx : b.content = [] := by
        apply List.eq_nil_of_length_eq_zero; omega
      have hif : ¬ (s.bufpos = CHUNK_SIZE ∧ b.pos ≠ 0) := by simp [hp]
      simp only [if_neg hif]
      simp only [hx, overwrite_nil, hp, Nat.add_zero]
      exact tailC_eq hI (by omega) hb1
    · have hx : b.content ≠ [] := by intro h; rw [h] at hcl; simp at hcl; omega
      have hif : (s.bufpos = CHUNK_SIZE ∧ b.pos ≠ 0) = (s.bufpos = CHUNK_SIZE) := by simp [hp]
      have := hI.step hx (by rw [hlen, hcl]; omega) (by omega) _ rfl
      rw [hb, List.take_append_drop, ← hb] at this
      simp only [hif]
      rw [hcl] at this
      exact tailC_eq this hSle hb1

end Hashes.K12
