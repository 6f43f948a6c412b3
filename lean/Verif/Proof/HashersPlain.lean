import Verif.Proof.Hashers
import Verif.Props.Whirlpool
import Verif.Props.Gost94
import Verif.Props.Streebog
import Verif.Props.Shabal
import Verif.Props.Belt
import Verif.Props.Blake2
import Verif.Props.Skein
import Verif.Props.CShake
import Verif.Props.Ascon
import Verif.Props.Sha1Checked
import Verif.Props.K12
import Verif.Props.Checked
/- Runs of the other checked hashers. -/
namespace Hashes
open Rs

/-- Hashers built with `plainC` whose block function cannot fail, from a state and a buffer. -/
theorem Rs.plain_resume {σ τ ω : Type} {kind : BufKind} {bs : Nat} {i : Option τ} {comp : τ → Bytes → Option τ} {out : τ → BlockBuffer → Option ω}
    {c : Core σ ω} {inv' : σ → Prop} (L : c.Lawful inv') (rep : σ → τ) (inv : σ → Prop) (g : σ → Bytes → σ) (hk : kind = c.kind) (hb : bs = c.bs)
    (hu : ∀ s blks, c.updateBlocks s blks = blks.foldl g s)
    (step : ∀ s b, inv s → b.length = c.bs → comp (rep s) b = some (rep (g s b)) ∧ inv (g s b))
    (fin : ∀ s buf, inv s → buf.WF c.kind c.bs → out (rep s) buf = some (c.finalize s buf)) (h : Hasher σ) (hs : inv h.core)
    (wf : h.buf.WF c.kind c.bs) (l : List Bytes) :
    (plainC kind bs i comp out).resume (rep h.core) h.buf l = some (c.finish (c.updates h l)) := by
  refine total_resume rep inv L hk hb l (fun _ _ s blks hs hbl _ => ?_) fin h hs wf
  rw [hu]
  refine ⟨foldlM_image rep inv g step blks hbl s hs, ?_⟩
  clear * - hs hbl step
  induction blks generalizing s with
  | nil => exact hs
  | cons b blks ih => exact ih _ (step s b hs (hbl b List.mem_cons_self)).2 fun x hx => hbl x (List.mem_cons_of_mem _ hx)

/-- From a fresh hasher. -/
theorem Rs.plain_run {σ τ ω : Type} {kind : BufKind} {bs : Nat} {i : Option τ} {comp : τ → Bytes → Option τ} {out : τ → BlockBuffer → Option ω}
    {c : Core σ ω} {inv' : σ → Prop} (L : c.Lawful inv') (rep : σ → τ) (inv : σ → Prop) (g : σ → Bytes → σ) (hk : kind = c.kind) (hb : bs = c.bs)
    (h0 : i = some (rep c.init)) (inv0 : inv c.init) (hu : ∀ s blks, c.updateBlocks s blks = blks.foldl g s)
    (step : ∀ s b, inv s → b.length = c.bs → comp (rep s) b = some (rep (g s b)) ∧ inv (g s b))
    (fin : ∀ s buf, inv s → buf.WF c.kind c.bs → out (rep s) buf = some (c.finalize s buf)) (l : List Bytes) :
    (plainC kind bs i comp out).run l = some (c.finish (c.updates c.new l)) := by
  rw [run_resume (cc := plainC kind bs i comp out) h0, show (plainC kind bs i comp out).bs = c.bs from hb]
  exact plain_resume L rep inv g hk hb hu step fin c.new inv0 (Core.Rep.new L).1 l

section
attribute [local irreducible] Md2.compress Md2.compressC Md2.finalizeC Md2.finalize
theorem Md2.resume_eq (h : Hasher State) (hs : Shape h.core) (wf : h.buf.WF .eager 16) (l : List Bytes) :
    md2C.resume h.core h.buf l = some (md2.finish (md2.updates h l)) :=
  plain_resume (c := md2) lawful (fun s => s) Shape compress rfl rfl (fun _ _ => rfl)
    (fun _ _ hs hb => ⟨compressC_eq hs.1 hs.2 hb, compress_shape hs hb⟩) (fun _ _ hs wf => finalizeC_eq hs.1 hs.2 wf) h hs wf l

theorem Md2.run_eq (l : List Bytes) : md2C.run l = some (Spec.Md2.md2 l.flatten) := by
  rw [← C12_md2, run_resume (t := md2.init) rfl]
  exact resume_eq md2.new lawful.inv_init (Core.Rep.new lawful).1 l

end

theorem Streebog.resume_eq {N : Nat} (s0 : State) (hN : N ≤ 64) (h : Hasher State) (wf : h.buf.WF .eager 64) (l : List Bytes) :
    (streebogC N).resume (h.core.h.toList, h.core.n.toList, h.core.sigma.toList) h.buf l =
      some ((varCore.ctWith N s0).finish ((varCore.ctWith N s0).updates h l)) :=
  plain_resume (c := varCore.ctWith N s0) (lawful.ct N s0) (fun s => (s.h.toList, s.n.toList, s.sigma.toList)) (fun _ => True) (fun s b => compress s b 64)
    rfl rfl (fun _ _ => rfl) (fun s _ _ hb => ⟨compressC_eq s hb (by decide), trivial⟩)
    (fun s _ _ wf => bind_ok (finalizeC_eq s wf (List.length_replicate ..))
      (truncateC_eq .right (by
        show N ≤ (toBytes _).length
        rw [toBytes, length_bytesOfWordsLE]; exact hN))) h trivial wf l

theorem Streebog.run_eq {N : Nat} {s0 : State} (h0 : new N = some s0) (hN : N ≤ 64) (l : List Bytes) :
    (streebogC N).run l = some ((varCore.ctWith N s0).finish ((varCore.ctWith N s0).updates (varCore.ctWith N s0).new l)) := by
  rw [run_resume (cc := streebogC N) (t := (s0.h.toList, s0.n.toList, s0.sigma.toList)) (by simp only [streebogC, plainC, h0, Option.map_some])]
  exact resume_eq s0 hN ((varCore.ctWith N s0).new) (Core.Rep.new (lawful.ct N s0)).1 l

theorem Shabal.length_finalizeFull (s : State) (b : BlockBuffer) : (finalizeFull s b).length = 64 := by
  unfold finalizeFull
  rw [length_bytesOfWordsLE, Arr.length_toList]

section
attribute [local irreducible] Shabal.compress Shabal.compressC Shabal.finalizeC Shabal.finalizeFull
theorem Shabal.resume_eq {N : Nat} (s0 : State) (hN : N ≤ 64) (h : Hasher State) (wf : h.buf.WF .eager 64) (l : List Bytes) :
    (shabalC N).resume h.core.toC h.buf l = some ((varCore.ctWith N s0).finish ((varCore.ctWith N s0).updates h l)) :=
  plain_resume (c := varCore.ctWith N s0) (lawful.ct N s0) State.toC (fun _ => True) compress
    rfl rfl (fun _ _ => rfl) (fun s _ _ hb => ⟨compressC_eq s hb, trivial⟩)
    (fun s _ _ wf => bind_ok (finalizeC_eq s wf (List.length_replicate ..))
      (truncateC_eq .right (by
        rw [Shabal.length_finalizeFull]; exact hN))) h trivial wf l

theorem Shabal.run_eq {N : Nat} {s0 : State} (h0 : new N = some s0) (hN : N ≤ 64) (l : List Bytes) :
    (shabalC N).run l = some ((varCore.ctWith N s0).finish ((varCore.ctWith N s0).updates (varCore.ctWith N s0).new l)) := by
  rw [run_resume (cc := shabalC N) (t := s0.toC) (by simp only [shabalC, plainC, h0, Option.map_some]; rfl)]
  exact resume_eq s0 hN ((varCore.ctWith N s0).new) (Core.Rep.new (lawful.ct N s0)).1 l

end

theorem Ascon.run_eq (P : State → State) (l : List Bytes) :
    (hash256C P).run l = some (Spec.Ascon.sponge P ivHash l.flatten 32) := by
  rw [← C45_hash256]
  exact plain_run (c := hash256 P) (hash_lawful P) id (fun _ => True) (absorbBlock P) rfl rfl rfl trivial (fun _ _ => rfl)
    (fun s _ _ hb => ⟨absorbBlockC_eq P s hb, trivial⟩) (fun s _ _ wf => finalizeC_eq P s wf.1 wf.2 (List.length_replicate ..)) l

theorem Ascon.xof_run_eq (P : State → State) (l : List Bytes) :
    (xof128C P).run l = some ((xof128 P).finish ((xof128 P).updates (xof128 P).new l)) :=
  plain_run (c := xof128 P) (xof_lawful P) id (fun _ => True) (absorbBlock P) rfl rfl rfl trivial (fun _ _ => rfl)
    (fun s _ _ hb => ⟨absorbBlockC_eq P s hb, trivial⟩) (fun s _ _ wf => finalizeXofC_eq P s wf.1 wf.2) l

theorem Sha3.fixed_resume {f : Lanes → Lanes} (hf : Perm f) {rate : Nat} (h0 : 0 < rate) (h8 : rate % 8 = 0) {N : Nat} (hN : N ≤ 200) (pad : Byte)
    (h : Hasher Lanes) (hs : h.core.length = 25) (wf : h.buf.WF .eager rate) (l : List Bytes) :
    (fixedC f N rate pad).resume h.core h.buf l = some ((fixed f N rate pad).finish ((fixed f N rate pad).updates h l)) :=
  plain_resume (c := fixed f N rate pad) (fixed_lawful hf h0 N pad) (fun s => s) (fun s => s.length = 25) (absorbBlock f) rfl rfl
    (fun _ _ => rfl) (fun s b hs hb => ⟨absorbBlockC_eq f s (by rw [hb]; exact h8), length_absorbBlock hf hs b⟩)
    (fun s _ hs wf => by
      refine (finalizeC_eq f h8 pad wf.1 wf.2 (out := List.replicate N 0) ?_).trans ?_
      · rw [length_absorbBlock hf hs, List.length_replicate]; exact hN
      · rw [List.length_replicate]; rfl) h hs wf l

theorem Sha3.fixed_run {f : Lanes → Lanes} (hf : Perm f) {rate : Nat} (h0 : 0 < rate) (h8 : rate % 8 = 0) {N : Nat} (hN : N ≤ 200) (pad : Byte)
    (l : List Bytes) : (fixedC f N rate pad).run l = some ((fixed f N rate pad).finish ((fixed f N rate pad).updates (fixed f N rate pad).new l)) := by
  rw [run_resume (cc := fixedC f N rate pad) (t := zero) rfl]
  exact fixed_resume hf h0 h8 hN pad (fixed f N rate pad).new (by simp [fixed, Core.new, zero]) (Core.Rep.new (fixed_lawful hf h0 N pad)).1 l

theorem Sha3.shake_run {f : Lanes → Lanes} (hf : Perm f) {rate : Nat} (h0 : 0 < rate) (h8 : rate % 8 = 0) (pad : Byte)
    (l : List Bytes) : (shakeC f rate pad).run l = some ((shake f rate pad).finish ((shake f rate pad).updates (shake f rate pad).new l)) :=
  plain_run (c := shake f rate pad) (shake_lawful hf h0 pad) id (fun _ => True) (absorbBlock f) rfl rfl rfl trivial
    (fun _ _ => rfl) (fun s b _ hb => ⟨absorbBlockC_eq f s (by rw [hb]; exact h8), trivial⟩)
    (fun s _ _ wf => finalizeXofC_eq f h8 pad s wf.1 wf.2) l

theorem Sha3.cshake_run {f : Lanes → Lanes} (hf : Perm f) {rate : Nat} (h0 : 0 < rate) (h8 : rate % 8 = 0) {name cust : Bytes}
    (hn : name.length * 8 < 2 ^ 64) (hc : cust.length * 8 < 2 ^ 64) (l : List Bytes) :
    (cshakeC f rate name cust).run l =
      some ((cshake f rate name cust).finish ((cshake f rate name cust).updates (cshake f rate name cust).new l)) :=
  total_run (c := cshake f rate name cust) id (fun _ => True) (cshake_lawful hf h0 name cust) rfl rfl (CShake.newC_eq f h0 h8 hn hc) trivial l
    (fun _ _ s blks _ hbl _ => ⟨bind_ok (foldlM_absorb f h8 blks hbl s.state) rfl, trivial⟩)
    (fun s _ _ wf => finalizeXofC_eq f h8 s.padding s.state wf.1 wf.2)

/-- A name or customization of 2^61 bytes or more overflows the length in bits. -/
theorem Sha3.cshake_run_none {f : Lanes → Lanes} {rate : Nat} {name cust : Bytes} (h : bitsC name = none ∨ bitsC cust = none) (l : List Bytes) :
    (cshakeC f rate name cust).run l = none := by
  refine run_none ?_ l
  show CShake.newC f rate name cust = none
  have ne : ¬ (name.isEmpty ∧ cust.isEmpty) := by
    rintro ⟨h1, h2⟩
    rw [List.isEmpty_iff] at h1 h2
    subst h1 h2
    rcases h with h | h <;> exact absurd h (by decide)
  rw [CShake.newC, if_neg ne]
  refine Option.bind_eq_none_iff.2 fun e _ => Option.bind_eq_none_iff.2 fun a _ => Option.bind_eq_none_iff.2 fun n hn => ?_
  rcases h with h | h
  · rw [h] at hn; cases hn
  · refine Option.bind_eq_none_iff.2 fun e _ => Option.bind_eq_none_iff.2 fun a _ => Option.bind_eq_none_iff.2 fun a _ => Option.bind_eq_none_iff.2 fun n hn => ?_
    rw [h] at hn; cases hn

theorem Sha3.turbo_run {f : Lanes → Lanes} (hf : Perm f) {rate : Nat} (h0 : 0 < rate) (h8 : rate % 8 = 0) {d : Byte} {i : Turbo} (hi : Turbo.new d = some i)
    (l : List Bytes) : (turboC f rate d).run l = some ((turbo f rate i).finish ((turbo f rate i).updates (turbo f rate i).new l)) :=
  total_run (c := turbo f rate i) id (fun _ => True) (turbo_lawful hf h0 hi) rfl rfl (by
      unfold Turbo.new at hi
      split at hi
      · next h => cases hi; exact bind_ok (check_of h) rfl
      · cases hi) trivial l
    (fun _ _ s blks _ hbl _ => ⟨bind_ok (foldlM_absorb f h8 blks hbl s.state) rfl, trivial⟩)
    (fun s _ _ wf => finalizeXofC_eq f h8 s.domain s.state wf.1 wf.2)

theorem Sha3.turbo_run_none {f : Lanes → Lanes} {rate : Nat} {d : Byte} (hi : Turbo.new d = none) (l : List Bytes) : (turboC f rate d).run l = none := by
  refine run_none ?_ l
  unfold Turbo.new at hi
  split at hi
  · cases hi
  · next h => simp only [turboC, check, if_neg h]; rfl

/-- The checked hasher against the 256-bit counter of the bookkeeping. -/
theorem Whirlpool.sim : Sim whirlpoolC whirlpool Count.whirlpool (fun s => (s.state.toList, s.bitLen.toList))
    (fun s => BitVec.ofNat 256 (val s.bitLen)) fun _ => True := by
  refine ⟨rfl, rfl, rfl, rfl, fun s blks _ hl => ?_, fun s blks n _ hl hn => ⟨?_, trivial⟩, fun s buf _ wf => ?_⟩
  · show (Option.bind (Count.mul 64 512 blks.length) _) = ((Count.mul 64 512 blks.length).map _).map _
    by_cases hn : 512 * blks.length < 2 ^ 64
    · rw [show Count.mul 64 512 blks.length = some _ from if_pos hn]
      refine bind_ok rfl <| bind_ok (updateLenC_eq s.bitLen _) <| bind_ok ((C60_whirlpool s.state).1 blks hl) ?_
      have := C30_whirlpool_slice s.bitLen blks (by omega)
      rw [BitVec.ofNat_mul]
      show some _ = some _
      rw [show (BitVec.ofNat 64 512 * BitVec.ofNat 64 blks.length) = 512 * BitVec.ofNat 64 blks.length from rfl, this]
      rfl
    · rw [show Count.mul 64 512 blks.length = none from if_neg hn]; rfl
  · have hn : (Count.mul 64 512 blks.length).map (fun x => BitVec.ofNat 256 (val s.bitLen) + BitVec.ofNat 256 x) = some n := hn
    unfold Count.mul at hn
    split at hn
    · have hn := Option.some.inj hn
      rw [← hn]
      show BitVec.ofNat 256 (val (blks.foldl (fun l _ => updateLen l 512) s.bitLen)) = _
      show _ = BitVec.ofNat 256 (val s.bitLen) + BitVec.ofNat 256 (512 * blks.length)
      rw [val_blocks, ← BitVec.ofNat_add]
      apply BitVec.eq_of_toNat_eq
      simp only [BitVec.toNat_ofNat]
      omega
    · cases hn
  · have hp : buf.pos < 64 := wf.2
    show (Option.bind (Count.mul 64 8 buf.pos) _) = ((Count.mul 64 8 buf.pos).map _).map _
    rw [show Count.mul 64 8 buf.pos = some _ from if_pos (by omega)]
    refine bind_ok rfl <| bind_ok (updateLenC_eq s.bitLen _) ?_
    rw [BitVec.ofNat_mul]
    refine bind_ok (outBE_eq (by decide) rfl) ?_
    refine bind_ok (digestPadC_eq V8.toList wf 0x80 (by rw [length_bytesOfWordsBE]; exact (by decide : 32 ≤ 64)) (fun s _ hb => compressC_eq s hb) s.state) ?_
    exact outLE_eq (by decide) rfl

/-- Blocks of one `update` that are compressed from the input slice directly, with `p` bytes in the buffer. -/
def Whirlpool.direct (p : Nat) (x : Bytes) : Nat := if p = 0 then x.length / 64 else (x.length - (64 - p)) / 64

/-- No `update` has 2^55 or more of these. -/
def Whirlpool.fitsAll : Nat → List Bytes → Bool
  | _, [] => true
  | p, x :: l => decide (direct p x < 2 ^ 55) && fitsAll ((p + x.length) % 64) l

theorem Whirlpool.book_none (l : List Bytes) (b : BlockBuffer) : (Count.whirlpool.core.updates ⟨none, b⟩ l).core = none := by
  induction l generalizing b with
  | nil => rfl
  | cons x l ih =>
    have : (Count.whirlpool.core.update ⟨none, b⟩ x).core = none := by
      show (b.digestBlocks .eager 64 x Count.whirlpool.core.updateBlocks none).2 = none
      have e : ∀ blks, Count.whirlpool.core.updateBlocks none blks = none := fun _ => rfl
      unfold BlockBuffer.digestBlocks
      simp only [e]
      split
      · rfl
      · split <;> simp only [e, ite_self]
    show (Count.whirlpool.core.updates (Count.whirlpool.core.update ⟨none, b⟩ x) l).core = none
    generalize Count.whirlpool.core.update ⟨none, b⟩ x = h at *
    obtain ⟨c, b'⟩ := h
    cases this
    exact ih b'

theorem Whirlpool.book_some (l : List Bytes) (n : BitVec 256) (b : BlockBuffer) (hp : b.pos < 64) :
    (Count.whirlpool.core.updates ⟨some n, b⟩ l).core.isSome = fitsAll b.pos l := by
  induction l generalizing n b with
  | nil => rfl
  | cons x l ih =>
    have key : (∃ m, (Count.whirlpool.core.update ⟨some n, b⟩ x).core = some m ∧ direct b.pos x < 2 ^ 55 ∨
        (Count.whirlpool.core.update ⟨some n, b⟩ x).core = none ∧ ¬ direct b.pos x < 2 ^ 55) ∧
        (Count.whirlpool.core.update ⟨some n, b⟩ x).buf.pos = (b.pos + x.length) % 64 := by
      have up : ∀ (n : BitVec 256) (blks : List Bytes), Count.whirlpool.core.updateBlocks (some n) blks =
          if blks.length < 2 ^ 55 then some (n + BitVec.ofNat 256 (512 * blks.length)) else none := by
        intro n blks
        show (Count.mul 64 512 blks.length).map _ = _
        unfold Count.mul
        by_cases h : blks.length < 2 ^ 55
        · rw [if_pos h, if_pos (by omega)]; rfl
        · rw [if_neg h, if_neg (by omega)]; rfl
      show (∃ m, (b.digestBlocks .eager 64 x Count.whirlpool.core.updateBlocks (some n)).2 = some m ∧ _ ∨
        (b.digestBlocks .eager 64 x Count.whirlpool.core.updateBlocks (some n)).2 = none ∧ _) ∧
        (b.digestBlocks .eager 64 x Count.whirlpool.core.updateBlocks (some n)).1.pos = _
      unfold direct BlockBuffer.digestBlocks
      simp only [BlockBuffer.fits, decide_eq_true_eq, BlockBuffer.splitCount]
      have tail : ∀ (n : BitVec 256) (y : Bytes), (∃ m, (if (blocks 64 (y.length / 64) y).isEmpty then some n
            else Count.whirlpool.core.updateBlocks (some n) (blocks 64 (y.length / 64) y)) = some m ∧ y.length / 64 < 2 ^ 55 ∨
          (if (blocks 64 (y.length / 64) y).isEmpty then some n
            else Count.whirlpool.core.updateBlocks (some n) (blocks 64 (y.length / 64) y)) = none ∧ ¬ y.length / 64 < 2 ^ 55) := by
        intro n y
        have hlen := length_blocks 64 (y.length / 64) y
        by_cases he : (blocks 64 (y.length / 64) y).isEmpty = true
        · rw [if_pos he]
          rw [List.isEmpty_iff] at he
          rw [he] at hlen
          exact ⟨n, .inl ⟨rfl, by simp at hlen; omega⟩⟩
        · rw [if_neg he, up, hlen]
          by_cases h : y.length / 64 < 2 ^ 55
          · rw [if_pos h]; exact ⟨_, .inl ⟨rfl, h⟩⟩
          · rw [if_neg h]; exact ⟨n, .inr ⟨rfl, h⟩⟩
      by_cases hf : x.length < 64 - b.pos
      · rw [if_pos hf]
        refine ⟨⟨n, .inl ⟨rfl, ?_⟩⟩, ?_⟩
        · split <;> omega
        · show b.pos + x.length = _
          omega
      · rw [if_neg hf]
        by_cases h0 : b.pos = 0
        · simp only [h0, ne_eq, not_true_eq_false, if_false, if_true]
          refine ⟨tail n x, ?_⟩
          simp only [List.length_drop]
          omega
        · simp only [h0, ne_eq, not_false_eq_true, if_true, if_false]
          have hd := tail (n + BitVec.ofNat 256 (512 * 1)) (x.drop (64 - b.pos))
          rw [List.length_drop] at hd
          simp only [up n [_], List.length_singleton, List.length_drop]
          simp only [if_pos (show 1 < 2 ^ 55 by decide)]
          refine ⟨hd, ?_⟩
          omega
    obtain ⟨⟨m, h⟩, hpos⟩ := key
    show (Count.whirlpool.core.updates (Count.whirlpool.core.update ⟨some n, b⟩ x) l).core.isSome = (decide (direct b.pos x < 2 ^ 55) && fitsAll ((b.pos + x.length) % 64) l)
    generalize Count.whirlpool.core.update ⟨some n, b⟩ x = hh at *
    obtain ⟨c, b'⟩ := hh
    simp only at h hpos
    rcases h with ⟨rfl, hd⟩ | ⟨rfl, hd⟩
    · rw [ih m b' (by omega), hpos, decide_eq_true hd, Bool.true_and]
    · rw [book_none, decide_eq_false hd]; rfl

theorem Whirlpool.resume_eq (s : Hasher State) (wf : s.buf.WF .eager 64) (l : List Bytes) :
    whirlpoolC.resume (s.core.state.toList, s.core.bitLen.toList) s.buf l =
      if fitsAll s.buf.pos l = true then some (whirlpool.finish (whirlpool.updates s l)) else none := by
  rw [show whirlpoolC.resume (s.core.state.toList, s.core.bitLen.toList) s.buf l = _ from sim.resume lawful s trivial wf l]
  generalize whirlpool.finish (whirlpool.updates s l) = out
  generalize hn : BitVec.ofNat 256 (val s.core.bitLen) = n
  have hp : s.buf.pos < 64 := wf.2
  have h : (Count.whirlpool.core.updates ⟨some n, s.buf⟩ l).core.isSome = fitsAll s.buf.pos l := book_some l n s.buf hp
  have wf : (Count.whirlpool.core.updates ⟨some n, s.buf⟩ l).buf.pos < 64 := by
    have gen : ∀ (l : List Bytes) (c : Option (BitVec 256)) (b : BlockBuffer), b.pos < 64 → (Count.whirlpool.core.updates ⟨c, b⟩ l).buf.pos < 64 := by
      intro l
      induction l with
      | nil => exact fun _ _ h => h
      | cons x l ih =>
        intro c b hp
        refine ih _ _ ?_
        show (b.digestBlocks .eager 64 x Count.whirlpool.core.updateBlocks c).1.pos < 64
        unfold BlockBuffer.digestBlocks
        simp only [BlockBuffer.fits, decide_eq_true_eq, BlockBuffer.splitCount]
        split
        · show b.pos + x.length < 64; omega
        · split <;> simp only [List.length_drop] <;> omega
    exact gen l _ _ hp
  show ((Count.whirlpool.core.updates ⟨some n, s.buf⟩ l).core.bind fun n => (Count.mul 64 8 (Count.whirlpool.core.updates ⟨some _, s.buf⟩ l).buf.pos).map _).map _ = _
  rw [show Count.mul 64 8 (Count.whirlpool.core.updates ⟨some n, s.buf⟩ l).buf.pos = some _ from if_pos (by omega)]
  cases hc : (Count.whirlpool.core.updates ⟨some n, s.buf⟩ l).core with
  | none => rw [hc] at h; rw [← h]; rfl
  | some n => rw [hc] at h; rw [← h]; rfl

theorem Whirlpool.run_eq (l : List Bytes) :
    whirlpoolC.run l = if fitsAll 0 l = true then some (Spec.Whirlpool.whirlpool l.flatten) else none := by
  rw [← C34_whirlpool, run_resume (cc := whirlpoolC) (t := (whirlpool.init.state.toList, whirlpool.init.bitLen.toList)) rfl]
  exact resume_eq whirlpool.new (Core.Rep.new lawful).1 l

theorem Gost94.resume_eq {sb : List (List Byte)} (hb : IsBox sb) {h0 : Bytes} (hh : h0.length = 32) (s : Hasher State) (hs : Shape s.core)
    (wf : s.buf.WF .eager 32) (l : List Bytes) (h : ∀ x ∈ l, x.length < 2 ^ 64) :
    (gost94C sb h0).resume s.core.toC s.buf l = some ((gost94 sb h0).finish ((gost94 sb h0).updates s l)) := by
  refine total_resume (c := gost94 sb h0) State.toC Shape (lawful hh) rfl rfl l
    (fun x hx s blks hs hbl hn => ⟨?_, (lawful hh).inv_update _ _ hbl hs⟩) (fun s buf hs wf => finalizeC_eq hb hs wf (List.length_replicate ..)) s hs wf
  have hn : blks.length < 2 ^ 59 := by
    have := h x hx
    have e : (gost94 sb h0).bs = 32 := rfl
    rw [e] at hn
    omega
  refine bind_ok (if_pos (by omega)) <| bind_ok (updateNC_eq s.n _) ?_
  rw [C30_gost94_slice s.n blks hn]
  exact (C60_gost94 sb hb ⟨s.h, blks.foldl (fun n _ => updateN n 32) s.n, s.sigma⟩ hs).1 blks hbl

theorem Gost94.run_eq {sb : List (List Byte)} (hb : IsBox sb) {h0 : Bytes} (hh : h0.length = 32) (l : List Bytes) (h : ∀ x ∈ l, x.length < 2 ^ 64) :
    (gost94C sb h0).run l = some (Spec.Gost94.hash sb (Spec.Gost94.vec h0) l.flatten) := by
  rw [← C40_gost94 sb h0 hh, run_resume (cc := gost94C sb h0) (t := (gost94 sb h0).init.toC) rfl]
  exact resume_eq hb hh (gost94 sb h0).new hh (Core.Rep.new (lawful hh)).1 l h

/-! ### Byte counters advanced block by block -/

/-- The checked sum of a counter and a length is the bookkeeping's. -/
theorem Rs.add_book (n : W64) {k : Nat} (h : k < 2 ^ 64) :
    (Rs.add n (BitVec.ofNat 64 k) = some (n + BitVec.ofNat 64 k) ∧ Count.add 64 n.toNat k = some (n.toNat + k)) ∨
    (Rs.add n (BitVec.ofNat 64 k) = none ∧ Count.add 64 n.toNat k = none) := by
  have e : (BitVec.ofNat 64 k).toNat = k := by rw [BitVec.toNat_ofNat, Nat.mod_eq_of_lt h]
  unfold Rs.add Count.add
  rw [e]
  by_cases hs : n.toNat + k < 2 ^ 64
  · exact .inl ⟨if_pos hs, if_pos hs⟩
  · exact .inr ⟨if_neg hs, if_neg hs⟩

theorem Rs.perBlock_sim {σ τ ω : Type} {bs : Nat} {i : Option τ} {comp : τ → Bytes → Option τ} {out : τ → BlockBuffer → Option ω}
    {c : Core σ ω} {k : Count.Book 64} (hk : k = Count.blake2 bs ∨ k = Count.skein bs) (rep : σ → τ)
    (ctr : σ → W64) (g : σ → Bytes → σ) (hc : c.kind = .lazy) (hb : c.bs = bs) (h64 : bs < 2 ^ 64) (hu : ∀ s blks, c.updateBlocks s blks = blks.foldl g s)
    (hg : ∀ s b, b.length = bs → ctr (g s b) = ctr s + BitVec.ofNat 64 bs)
    (step : ∀ s b, b.length = bs → (ctr s).toNat + bs < 2 ^ 64 → comp (rep s) b = some (rep (g s b)))
    (fail : ∀ s b, b.length = bs → Rs.add (ctr s) (BitVec.ofNat 64 bs) = none → comp (rep s) b = none)
    (fin : ∀ s buf, buf.WF .lazy bs → (ctr s).toNat + buf.pos < 2 ^ 64 → out (rep s) buf = some (c.finalize s buf))
    (ffail : ∀ s buf, buf.WF .lazy bs → Rs.add (ctr s) (BitVec.ofNat 64 buf.pos) = none → out (rep s) buf = none) :
    Sim (plainC .lazy bs i comp out) c k rep ctr (fun _ => True) := by
  have ek : k = ⟨.lazy, bs, Count.perBlock bs, Count.add 64⟩ := by rcases hk with rfl | rfl <;> rfl
  clear hk
  subst ek
  have key : ∀ (blks : List Bytes) (s : σ), (∀ b ∈ blks, b.length = bs) →
      (blks.foldlM comp (rep s) = (Count.perBlock bs (ctr s) blks.length).map fun _ => rep (blks.foldl g s)) ∧
      ∀ n, Count.perBlock bs (ctr s) blks.length = some n → ctr (blks.foldl g s) = n := by
    intro blks
    induction blks with
    | nil => exact fun s _ => ⟨rfl, fun n hn => Option.some.inj hn⟩
    | cons b blks ih =>
      intro s hl
      have hbl := hl b List.mem_cons_self
      have hr := ih (g s b) fun x hx => hl x (List.mem_cons_of_mem _ hx)
      rw [hg s b hbl] at hr
      rw [List.foldlM_cons, List.length_cons, Count.perBlock, Count.bump, List.foldl_cons]
      rcases add_book (ctr s) h64 with ⟨-, e⟩ | ⟨e1, e⟩
      · have hs : (ctr s).toNat + bs < 2 ^ 64 := by
          unfold Count.add at e
          split at e
          · assumption
          · cases e
        have e' : BitVec.ofNat 64 ((ctr s).toNat + bs) = ctr s + BitVec.ofNat 64 bs := by
          rw [BitVec.ofNat_add, BitVec.ofNat_toNat, BitVec.setWidth_eq]
        rw [e, Option.map_some, Option.bind_some, e', step s b hbl hs]
        exact hr
      · rw [e, fail s b hbl e1]
        exact ⟨rfl, fun n hn => by cases hn⟩
  refine ⟨hc.symm, hc.symm, hb.symm, hb.symm, fun s blks _ hl => ?_, fun s blks n _ hl hn => ?_, fun s buf _ wf => ?_⟩
  · rw [hu]; exact (key blks s (by rw [← hb]; exact hl)).1
  · rw [hu]; exact ⟨(key blks s (by rw [← hb]; exact hl)).2 n hn, trivial⟩
  · rw [hc, hb] at wf
    have hp : buf.pos ≤ bs := wf.2
    show out (rep s) buf = (Count.add 64 (ctr s).toNat buf.pos).map fun _ => _
    rcases add_book (ctr s) (k := buf.pos) (by omega) with ⟨-, e⟩ | ⟨e1, e⟩
    · rw [e, fin s buf wf]
      · rfl
      · unfold Count.add at e
        split at e
        · assumption
        · cases e
    · rw [e, ffail s buf wf e1]; rfl

theorem Blake2.sim {w : Nat} {c : Cfg w} (hw : 8 ≤ w) (hc : c.bytes = 64 ∨ c.bytes = 32) (hl : c.bytes / 4 = 2 * (w / 8))
    (hbs : c.blockSize = w / 8 * 16) (h64 : c.blockSize < 2 ^ 64) (i : Option (State w)) (s0 : State w) {N : Nat} (hN : N ≤ c.bytes) :
    Sim (blake2C c i N) ((varCore c).ctWith N s0) (Count.blake2 c.blockSize) (fun s => s) State.t (fun _ => True) := by
  refine perBlock_sim (c := (varCore c).ctWith N s0) (.inl rfl) (fun s => s) State.t
    (fun s b => { s with t := s.t + BitVec.ofNat 64 b.length, h := compress c s.h (s.t + BitVec.ofNat 64 b.length) b 0 0 })
    rfl rfl h64 (fun _ _ => rfl) (fun s b hb => by rw [hb]) (fun s b hb h => ?_) (fun s b hb h => ?_) (fun s buf wf h => ?_) (fun s buf wf h => ?_)
  · exact updateBlockC_eq (by omega) hc (hb.trans hbs) (hb ▸ h)
  · rw [updateBlockC, hb, h]; rfl
  · refine bind_ok (finalizeC_eq (by omega) hc hl hbs wf.1 wf.2 (List.length_replicate ..) h) (truncateC_eq .left ?_)
    have e : (finalizeFull c s buf).length = c.bytes := by
      rw [finalizeFull, length_bytesOfWordsLE]
      show 8 * (w / 8) = c.bytes
      omega
    rw [e]; exact hN
  · rw [finalizeC, h]; rfl

theorem Blake2.run_eq {w : Nat} {c : Cfg w} (hw : 8 ≤ w) (hc : c.bytes = 64 ∨ c.bytes = 32) (hl : c.bytes / 4 = 2 * (w / 8))
    (hbs : c.blockSize = w / 8 * 16) (h64 : c.blockSize < 2 ^ 64) {i : Option (State w)} {s0 : State w} (hi : i = some s0) (ht : s0.t = 0) {N : Nat} (hN : N ≤ c.bytes)
    (l : List Bytes) :
    (blake2C c i N).run l = ((Count.blake2 c.blockSize).core.finish ((Count.blake2 c.blockSize).core.updates (Count.blake2 c.blockSize).core.new l)).map fun _ =>
      ((varCore c).ctWith N s0).finish (((varCore c).ctWith N s0).updates ((varCore c).ctWith N s0).new l) :=
  (sim hw hc hl hbs h64 i s0 hN).run ((lawful c (by omega)).ct N s0) hi ht trivial l

theorem Skein.sim {n : Nat} {E : CipherC} {E' : Cipher n} (hE : IsCipher E E') (hn : 4 ≤ n) (hn' : n < 2 ^ 32) {N : Nat} (hN : N * 8 < 2 ^ 64) :
    Sim (skeinC E n N) (core E' N) (Count.skein (8 * n)) State.toC State.t0 (fun _ => True) := by
  refine perBlock_sim (c := core E' N) (.inr rfl) State.toC State.t0 (fun s b => processBlock E' s b b.length)
    rfl rfl (by show 8 * n < 2 ^ 64; omega) (fun _ _ => rfl) (fun s b hb => by rw [hb]; rfl) (fun s b hb h => ?_) (fun s b hb h => ?_)
    (fun s buf wf h => ?_) (fun s buf wf h => ?_)
  · exact processBlockC_eq hE s hb (hb ▸ h)
  · rw [processBlockC, hb]
    show (Rs.add s.t0 _).bind _ = none
    rw [h]; rfl
  · exact finalizeC_eq hE (by omega) s wf.1 wf.2 h (by rw [List.length_replicate]; omega)
  · rw [finalizeC, processBlockC]
    show ((Rs.add s.t0 _).bind _).bind _ = none
    rw [h]; rfl

theorem Skein.run_eq {n : Nat} {E : CipherC} {E' : Cipher n} (hE : IsCipher E E') (hn : 4 ≤ n) (hn' : n < 2 ^ 32) {N : Nat} (hN : N * 8 < 2 ^ 64) (l : List Bytes) :
    (skeinC E n N).run l = ((Count.skein (8 * n)).core.finish ((Count.skein (8 * n)).core.updates (Count.skein (8 * n)).core.new l)).map fun _ =>
      (core E' N).finish ((core E' N).updates (core E' N).new l) :=
  (sim hE hn hn' hN).run (lawful N (by omega)) (initC_eq hE hn hN) rfl trivial l

/-! ### BelT -/

theorem Belt.sim {E : CipherC} {E' : Cipher} (hE : IsCipher E E') : Sim (beltC E) (belt E') Count.belt State.toC State.r (fun _ => True) := by
  refine ⟨rfl, rfl, rfl, rfl, fun s blks _ hl => ?_, fun s blks n _ hl hn => ⟨?_, trivial⟩, fun s buf _ wf => ?_⟩
  · exact bind_ok rfl ((C60_belt E E' hE ⟨s.r + BitVec.ofNat 128 blks.length, s.s, s.h⟩).1 blks hl)
  · have : ∀ (blks : List Bytes) (s : State), (blks.foldl (compressBlock E') s).r = s.r := by
      intro blks
      induction blks with
      | nil => exact fun _ => rfl
      | cons b blks ih => exact fun s => ih _
    exact (this blks _).trans (Option.some.inj hn)
  · have hp : buf.pos < 32 := wf.2
    show finalizeC E s.toC buf _ = (Option.bind _ _).map _
    by_cases h : 8 * (32 * s.r.toNat + buf.pos) < 2 ^ 128
    · rw [finalizeC_eq hE s wf (List.length_replicate ..) h]
      simp only [Count.mul, Count.add]
      rw [if_pos (by omega), Option.bind_some, if_pos (by omega), Option.bind_some, if_pos h]
      rfl
    · have e1 : ((Count.mul 128 32 s.r.toNat).bind fun x => (Count.add 128 x buf.pos).bind fun y => Count.mul 128 8 y) = none := by
        simp only [Count.mul, Count.add]
        by_cases h1 : 32 * s.r.toNat < 2 ^ 128
        · rw [if_pos h1, Option.bind_some]
          by_cases h2 : 32 * s.r.toNat + buf.pos < 2 ^ 128
          · rw [if_pos h2, Option.bind_some, if_neg h]
          · rw [if_neg h2]; rfl
        · rw [if_neg h1]; rfl
      have e2 : ((Rs.mul 32 s.r).bind fun a => (Rs.add a (BitVec.ofNat 128 buf.pos)).bind fun b => Rs.mul 8 b) = none := by
        simp only [Rs.mul, Rs.add]
        have t32 : (32 : W128).toNat = 32 := rfl
        have t8 : (8 : W128).toNat = 8 := rfl
        have tp : (BitVec.ofNat 128 buf.pos).toNat = buf.pos := by rw [BitVec.toNat_ofNat]; omega
        rw [t32]
        by_cases h1 : 32 * s.r.toNat < 2 ^ 128
        · rw [if_pos h1, Option.bind_some, BitVec.toNat_mul, t32, Nat.mod_eq_of_lt h1, tp]
          by_cases h2 : 32 * s.r.toNat + buf.pos < 2 ^ 128
          · rw [if_pos h2, Option.bind_some, BitVec.toNat_add, BitVec.toNat_mul, t32, t8, Nat.mod_eq_of_lt h1, tp, Nat.mod_eq_of_lt h2, if_neg h]
          · rw [if_neg h2]; rfl
        · rw [if_neg h1]; rfl
      have hpl : (buf.padWithZeros 32).1.length = 32 := by
        have : buf.data.length = 32 := wf.1
        simp [BlockBuffer.padWithZeros, this]; omega
      have hl : ∃ s', lastBlockC E s.toC buf = some s' ∧ s'.r = s.r := by
        rw [lastBlockC]
        split
        · exact ⟨_, compressBlockC_eq hE s hpl, rfl⟩
        · exact ⟨_, rfl, rfl⟩
      obtain ⟨s', hl, hr⟩ := hl
      rw [e1]
      refine bind_ok hl ?_
      rw [hr]
      have e3 : ∀ {α : Type} (f : W128 → Option α), ((Rs.mul 32 s.r).bind fun a => (Rs.add a (BitVec.ofNat 128 buf.pos)).bind fun b => (Rs.mul 8 b).bind f) = none := by
        intro α f
        have := congrArg (Option.bind · f) e2
        simp only [Option.bind_assoc] at this
        exact this
      exact e3 _

theorem Belt.run_eq {E : CipherC} {E' : Cipher} (hE : IsCipher E E') (l : List Bytes) :
    (beltC E).run l = (Count.belt.core.finish (Count.belt.core.updates Count.belt.core.new l)).map fun _ =>
      (belt E').finish ((belt E').updates (belt E').new l) := (sim hE).run (lawful E') rfl rfl trivial l

/-! ### sha1-checked -/

theorem Sha1Checked.resultC_eq (h : V5 W32) (ctx : Option Detection) : resultC h ctx = some (match ctx with
    | some ctx => if ctx.foundCollision then if ctx.safeHash then .mitigated (bytesOfWordsBE h.toList) else .collision (bytesOfWordsBE h.toList)
        else .ok (bytesOfWordsBE h.toList)
    | none => .ok (bytesOfWordsBE h.toList)) := by
  refine bind_ok (outBE_eq (by decide) rfl) ?_
  cases ctx <;> rfl

theorem Sha1Checked.detect_sim {x : Builder} (hx : x.detectCollision = true) :
    Sim (sha1CheckedC x) (sha1Checked x) Count.sha1Detect (fun s => s) State.blockLen (CfgInv x) := by
  refine ⟨rfl, rfl, rfl, rfl, fun s blks hs hl => ?_,
      fun s blks n hs hl hn => ⟨?_, (lawful x).inv_update s blks hl hs⟩, fun s buf hs wf => ?_⟩
  · obtain ⟨H, n, d⟩ := s
    cases d with
    | none => exact absurd hx (by simp only [CfgInv] at hs; simp [hs])
    | some ctx =>
      show ((Count.bump 64 n blks.length).bind fun m => (compressC (H, ctx) blks).bind fun r => some (⟨r.1, m, some r.2⟩ : State)) = _
      rw [compressC_eq (H, ctx) blks hl]
      show _ = (Count.bump 64 n blks.length).map _
      cases hb : Count.bump 64 n blks.length with
      | none => rfl
      | some m => rw [← bump_some hb]; rfl
  · obtain ⟨H, n', d⟩ := s
    cases d <;> exact bump_some hn
  · obtain ⟨H, n, d⟩ := s
    cases d with
    | none => exact absurd hx (by simp only [CfgInv] at hs; simp [hs])
    | some ctx =>
      have hp : buf.pos < 64 := wf.2
      have hcl : buf.content.length = buf.pos := by
        have := wf.1
        rw [BlockBuffer.content, List.length_take]
        have e : (sha1Checked x).bs = 64 := rfl
        omega
      show ((Count.mul 64 64 n.toNat).bind fun total => (finalizeC (H, ctx) (BitVec.ofNat 64 total) buf.content).bind fun r => resultC r.1 (some r.2)) =
        ((Count.mul 64 64 n.toNat).bind fun t => (Count.add 64 t buf.pos).map fun t => t * 8 % 2 ^ 64).map _
      by_cases h1 : 64 * n.toNat < 2 ^ 64
      · have e1 : Count.mul 64 64 n.toNat = some (64 * n.toNat) := if_pos h1
        have tt : (BitVec.ofNat 64 (64 * n.toNat)).toNat = 64 * n.toNat := by rw [BitVec.toNat_ofNat, Nat.mod_eq_of_lt h1]
        have eb : BitVec.ofNat 64 (64 * n.toNat) = (64 : W64) * n := by
          rw [BitVec.ofNat_mul, BitVec.ofNat_toNat, BitVec.setWidth_eq]; rfl
        rw [e1, Option.bind_some, Option.bind_some]
        by_cases h2 : 64 * n.toNat + buf.pos < 2 ^ 64
        · rw [finalizeC_eq (H, ctx) (by omega) (by rw [tt, hcl]; exact h2), show Count.add 64 (64 * n.toNat) buf.pos = some _ from if_pos h2, eb]
          exact resultC_eq (finalizeChecked (H, ctx) (64 * n) buf.content).1 (some (finalizeChecked (H, ctx) (64 * n) buf.content).2)
        · rw [show Count.add 64 (64 * n.toNat) buf.pos = none from if_neg h2, finalizeC]
          have : Rs.add (BitVec.ofNat 64 (64 * n.toNat)) (BitVec.ofNat 64 buf.content.length) = none := by
            refine if_neg ?_
            rw [tt, hcl, BitVec.toNat_ofNat]
            omega
          rw [this]; rfl
      · rw [show Count.mul 64 64 n.toNat = none from if_neg h1]; rfl

theorem Sha1Checked.detect_run {x : Builder} (hx : x.detectCollision = true) (l : List Bytes) :
    (sha1CheckedC x).run l = (Count.sha1Detect.core.finish (Count.sha1Detect.core.updates Count.sha1Detect.core.new l)).map fun _ =>
      (sha1Checked x).finish ((sha1Checked x).updates (sha1Checked x).new l) :=
  (detect_sim hx).run (lawful x) rfl rfl (lawful x).inv_init l

theorem Sha1Checked.plain_sim {x : Builder} (hx : x.detectCollision = false) :
    Sim (sha1CheckedC x) (sha1Checked x) Count.sha1Plain (fun s => s) State.blockLen (CfgInv x) := by
  refine ⟨rfl, rfl, rfl, rfl, fun s blks hs hl => ?_,
      fun s blks n hs hl hn => ⟨?_, (lawful x).inv_update s blks hl hs⟩, fun s buf hs wf => ?_⟩
  · obtain ⟨H, n, d⟩ := s
    cases d with
    | some ctx => exact absurd hs.1 (by simp [hx])
    | none =>
      show ((Count.bump 64 n blks.length).bind fun m => some (⟨Sha1.compressSoft H blks, m, none⟩ : State)) = (Count.bump 64 n blks.length).map _
      cases hb : Count.bump 64 n blks.length with
      | none => rfl
      | some m => rw [← bump_some hb]; rfl
  · obtain ⟨H, n', d⟩ := s
    cases d <;> exact bump_some hn
  · obtain ⟨H, n, d⟩ := s
    cases d with
    | some ctx => exact absurd hs.1 (by simp [hx])
    | none =>
      show ((Count.bitLen 64 64 n.toNat buf.pos).bind _) = (Count.bitLen 64 64 n.toNat buf.pos).map _
      cases hv : Count.bitLen 64 64 n.toNat buf.pos with
      | none => rfl
      | some v =>
        rw [Option.bind_some, bitLen_bv (n := n) hv]
        refine bind_ok (digestPadC_eq (f := fun st b => Sha1.compressSoft st [b]) (fun s => s) wf 0x80 (length_beBytes .. ▸ (by decide : 8 ≤ 64)) (fun _ _ _ => rfl) H) ?_
        exact resultC_eq _ none

theorem Sha1Checked.plain_run {x : Builder} (hx : x.detectCollision = false) (l : List Bytes) :
    (sha1CheckedC x).run l = (Count.sha1Plain.core.finish (Count.sha1Plain.core.updates Count.sha1Plain.core.new l)).map fun _ =>
      (sha1Checked x).finish ((sha1Checked x).updates (sha1Checked x).new l) :=
  (plain_sim hx).run (lawful x) rfl rfl (lawful x).inv_init l

/-- The model's FSB with the digest in place of `some digest`. -/
def Fsb.bare (P : Fsb.Params) (PI : Bytes) : Core Fsb.State Bytes :=
  { Fsb.core P PI with finalize := fun s b => (Fsb.finalize P PI s b).getD [] }

theorem Fsb.bare_lawful {P : Params} {PI : Bytes} (g : Good P) (hPI : P.n / P.r * (P.p / 8 + 1) ≤ PI.length) : (bare P PI).Lawful (Ok P) where
  bs_pos := (lawful g hPI).bs_pos
  nil := (lawful g hPI).nil
  app := (lawful g hPI).app
  inv_init := (lawful g hPI).inv_init
  inv_update := (lawful g hPI).inv_update
  reset_eq := (lawful g hPI).reset_eq
  fin_congr := fun s b b' h h' hc => congrArg (Option.getD · []) ((lawful g hPI).fin_congr s b b' h h' hc)

theorem Fsb.sim {P : Params} {PI : Bytes} (hP : P ∈ all) (hPI : P.n / P.r * (P.p / 8 + 1) ≤ PI.length) :
    Sim (fsbC P PI) (bare P PI) (Count.fsb P.bs) (fun s => (s.state.getD [], s.blocksLen)) State.blocksLen (Ok P) := by
  have g := good hP
  have fold : ∀ (blks : List Bytes) (o : Option Bytes), blks.foldl (compressOpt P PI) o = o.bind fun h => blks.foldlM (compress P PI) h := by
    intro blks
    induction blks with
    | nil => intro o; cases o <;> rfl
    | cons b blks ih => intro o; rw [List.foldl_cons, ih]; cases o <;> rfl
  refine ⟨rfl, rfl, rfl, rfl, ?_, ?_, ?_⟩
  · rintro ⟨n, st⟩ blks ⟨h, hs, hl⟩ hbl
    simp only at hs
    subst hs
    simp only [fsbC, countedC, Option.getD_some]
    cases hu : (Count.fsb P.bs).upd n blks.length with
    | none => rfl
    | some m =>
      have f := (foldl_eq g hPI blks hbl h hl).1
      refine bind_ok rfl (bind_ok ((fold blks (some h)).symm.trans f) ?_)
      show some (_, m) = some ((blks.foldl (compressOpt P PI) (some h)).getD [], n + _)
      rw [f, bump_some hu]; rfl
  · exact fun s blks m hs hbl hu => ⟨bump_some hu, (lawful g hPI).inv_update s blks hbl hs⟩
  · rintro ⟨n, st⟩ buf ⟨h, hs, hl⟩ wf
    simp only at hs
    subst hs
    have gb := g.bs_ge
    simp only [fsbC, countedC, Option.getD_some]
    cases hv : (Count.fsb P.bs).fin n.toNat buf.pos with
    | none => rfl
    | some v =>
      have ev : BitVec.ofNat 64 v = 8 * (BitVec.ofNat 64 buf.pos + BitVec.ofNat 64 P.bs * n) := by
        simp only [Count.fsb] at hv
        obtain ⟨a, ha, hv⟩ := Option.bind_eq_some_iff.1 hv
        obtain ⟨b, hb, hv⟩ := Option.bind_eq_some_iff.1 hv
        rw [mul_some hv, add_some hb, mul_some ha, BitVec.ofNat_mul, BitVec.ofNat_add, BitVec.ofNat_mul, BitVec.ofNat_toNat, BitVec.setWidth_eq,
          BitVec.add_comm, BitVec.mul_comm n]
        rfl
      have wb : buf.data.length = P.bs := wf.1
      have wp : buf.pos < P.bs := wf.2
      obtain ⟨t, ht, tl⟩ : ∃ t, buf.digestPad P.bs 0x80 (beBytes 8 (BitVec.ofNat 64 v).toNat) (compressOpt P PI) (some h) = some t ∧
          t.length = P.r / 8 := by
        have l1 : ((buf.padWithZeros P.bs).1).length = P.bs := by
          simp only [BlockBuffer.padWithZeros, List.length_append, List.length_replicate, List.length_take, wb]; omega
        unfold BlockBuffer.digestPad
        extract_lets pos b0 b1 k
        have l2 : b1.length = P.bs := by
          show (overwrite (buf.padWithZeros P.bs).1 buf.pos [_]).length = _
          rw [length_overwrite (by rw [l1]; simp; omega), l1]
        have lo : ∀ x : Bytes, x.length = P.bs → (overwrite x k (beBytes 8 (BitVec.ofNat 64 v).toNat)).length = P.bs := by
          intro x hx
          have : k = P.bs - (beBytes 8 (BitVec.ofNat 64 v).toNat).length := rfl
          rw [length_overwrite (by rw [this, hx]; simp; omega), hx]
        split
        · have h1 : compressOpt P PI (some h) b1 = _ := compress_eq g hPI h b1 hl l2
          refine ⟨_, Eq.trans (congrArg (compressOpt P PI · _) h1) (compress_eq g hPI _ _ (length_compress _ _) (lo _ (List.length_replicate ..))), length_compress _ _⟩
        · exact ⟨_, compress_eq g hPI _ _ hl (lo _ l2), length_compress _ _⟩
      have tr : t.length < 2 ^ 31 := by
        have h1 := g.r_w
        have h2 := g.n_w
        have h3 := g.n_lt
        have h4 : P.w ≤ P.n := by rw [h2]; exact Nat.le_mul_of_pos_right _ (Nat.pow_pos (by decide))
        omega
      have hw : Whirlpool.whirlpoolC.run [t] = some (Spec.Whirlpool.whirlpool t) := by
        rw [Whirlpool.run_eq, if_pos]
        · rw [List.flatten_singleton]
        · simp only [Whirlpool.fitsAll, Whirlpool.direct, Bool.and_true, decide_eq_true_eq, if_true]; omega
      have ho : P.out ≤ 64 := by
        have : ∀ Q ∈ all, Q.out ≤ 64 := by decide
        exact this P hP
      have lw : (Spec.Whirlpool.whirlpool t).length = 64 := by
        rw [← Whirlpool.digest_eq]
        exact length_bytesOfWordsLE ..
      have hf : finalize P PI ⟨n, some h⟩ buf = some ((Spec.Whirlpool.whirlpool t).take P.out) := by
        simp only [finalize, BlockBuffer.len64PaddingBE]
        rw [← ev, ht, Option.map_some]
        rw [show ∀ h, Whirlpool.whirlpool.finish (Whirlpool.whirlpool.update Whirlpool.whirlpool.new h) = Spec.Whirlpool.whirlpool h from Whirlpool.digest_eq]
      refine bind_ok rfl (bind_ok ((digestPadC_bind wf _ (by rw [length_beBytes]; exact gb) _ _).trans ht) (bind_ok hw (bind_ok (slice_le (Nat.zero_le _) (by omega)) ?_)))
      show copy _ _ _ _ = some ((finalize P PI ⟨n, some h⟩ buf).getD [])
      rw [hf, copy_le (Nat.zero_le _) (by simp) (by simp [lw, ho])]
      simp

theorem Fsb.run_eq {P : Params} {PI : Bytes} (hP : P ∈ all) (hPI : P.n / P.r * (P.p / 8 + 1) ≤ PI.length) (l : List Bytes) :
    (fsbC P PI).run l = ((Count.fsb P.bs).core.finish ((Count.fsb P.bs).core.updates (Count.fsb P.bs).core.new l)).map
      fun _ => Spec.Fsb.hash (toSpec P) PI l.flatten := by
  have g := good hP
  have e : (bare P PI).finish ((bare P PI).updates (bare P PI).new l) = Spec.Fsb.hash (toSpec P) PI l.flatten := by
    have h := C01_digest_of_chunks _ (lawful g hPI) l
    rw [digest_eq g hPI] at h
    exact congrArg (Option.getD · []) h
  rw [← e]
  exact (sim hP hPI).run (bare_lawful g hPI) rfl rfl (lawful g hPI).inv_init l

theorem K12.run_eq (cust : Bytes) (hc : cust.length < 2 ^ 64) (l : List Bytes) :
    (k12C cust).run l = if l.flatten.length + cust.length + (Spec.K12.lengthEncode cust.length).length ≤ 2 ^ 77 then
      some ((core cust).finish ((core cust).updates (core cust).new l)) else none := by
  have up : ∀ l : List Bytes, (k12C cust).core.updates (k12C cust).core.new l =
      ⟨if l.flatten.length < 2 ^ 77 + 128 then some ((core cust).updates (core cust).new l).core else none, ((core cust).updates (core cust).new l).buf⟩ := by
    intro l
    induction l using List.reverseRecOn with
    | nil =>
      show (⟨newC cust, _⟩ : Hasher (Option State)) = ⟨some (new cust), _⟩
      rw [newC_eq]; rfl
    | append_singleton l x ih =>
      have a : ∀ {σ ω : Type} (c : Core σ ω), c.updates c.new (l ++ [x]) = c.update (c.updates c.new l) x := fun c => by
        simp only [Core.updates, List.foldl_append, List.foldl_cons, List.foldl_nil]
      rw [a, a, ih, List.flatten_append, List.length_append, List.flatten_singleton]
      by_cases h : l.flatten.length < 2 ^ 77 + 128
      · rw [if_pos h]
        have e := (C60_k12 cust hc l h).2.1 x
        exact congrArg (fun p : BlockBuffer × Option State => (⟨p.2, p.1⟩ : Hasher (Option State))) e
      · rw [if_neg h, if_neg (by omega)]
        have r := (Core.Rep.new (lawful cust)).updates (lawful cust) l
        have wf : ((core cust).updates (core cust).new l).buf.WF .eager 128 := r.1
        obtain ⟨-, -, e⟩ := BlockBuffer.digestBlocks_spec (by decide) wf x (k12C cust).core.updateBlocks none
          (fun s => by cases s <;> rfl) (fun s x y => by
            cases s with
            | none => rfl
            | some s =>
              show (x.foldlM updateBlockC s).bind (fun s => y.foldlM updateBlockC s) = (x ++ y).foldlM updateBlockC s
              rw [List.foldlM_append]; rfl)
        show (⟨_, _⟩ : Hasher (Option State)) = ⟨_, _⟩
        congr 1
        exact digestBlocks_fst ..
  rw [CoreC.run, ← Core.updates, up l]
  by_cases h : l.flatten.length < 2 ^ 77 + 128
  · rw [if_pos h]
    exact (C60_k12 cust hc l h).2.2
  · rw [if_neg h, if_neg (by omega)]; rfl

end Hashes
