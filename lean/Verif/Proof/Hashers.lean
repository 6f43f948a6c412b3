import Verif.Checked.Hashers
import Verif.Proof.Run
import Verif.Props.Checked
import Verif.Props.Md
import Verif.Props.Ripemd
import Verif.Props.Sha2
import Verif.Props.Sm3
import Verif.Props.Tiger
import Verif.Props.Groestl
import Verif.Props.Kupyna
import Verif.Props.Jh
import Verif.Props.Counters
/- Runs of the checked hashers that count blocks. -/
namespace Hashes
open Rs

theorem Rs.outBE_eq {w n : Nat} (hw : 0 < w / 8) {l : List (BitVec w)} (h : n = w / 8 * l.length) : outBE n l = some (bytesOfWordsBE l) :=
  store_eq hw rfl (by rw [List.length_replicate, h]) fun _ => length_beBytes ..

theorem Rs.outLE_eq {w n : Nat} (hw : 0 < w / 8) {l : List (BitVec w)} (h : n = w / 8 * l.length) : outLE n l = some (bytesOfWordsLE l) :=
  store_eq hw rfl (by rw [List.length_replicate, h]) fun _ => length_leBytes ..

theorem Rs.digestBlocks_fix {σ : Type} (k : BufKind) (bs : Nat) (b : BlockBuffer) (input : Bytes) {f : σ → List Bytes → σ} {s : σ}
    (h : ∀ blks, f s blks = s) : (b.digestBlocks k bs input f s).2 = s := by
  unfold BlockBuffer.digestBlocks
  by_cases hf : BlockBuffer.fits k input.length (bs - b.pos) = true
  · simp only [if_pos hf]
  · simp only [if_neg hf]
    by_cases hp : b.pos = 0
    · simp only [hp, ne_eq, not_true_eq_false, if_false]
      split <;> simp [h]
    · simp only [ne_eq, hp, not_false_eq_true, if_true]
      split <;> simp [h]

/-- A constructor that panics leaves nothing to run. -/
theorem Rs.run_none {τ ω : Type} {c : CoreC τ ω} (h : c.init = none) (l : List Bytes) : c.run l = none := by
  have key : ∀ (l : List Bytes) (s : Hasher (Option τ)), s.core = none → (l.foldl c.core.update s).core = none := by
    intro l
    induction l with
    | nil => exact fun s h => h
    | cons x l ih =>
      rintro ⟨_, buf⟩ rfl
      exact ih _ (digestBlocks_fix c.kind c.bs buf x fun _ => rfl)
  rw [CoreC.run, Core.finish, key l _ h]; rfl

/-- From the exact counters: the value below the limit, a panic from there on. -/
theorem Rs.limit_run {w limit : Nat} {k : Count.Book w} {value : Nat → Nat} (h : Counted k limit value) {α : Type} {x : Option α} {l : List Bytes} {y z : α}
    (e : x = (k.core.finish (k.core.updates k.core.new l)).map fun _ => y) (hy : l.flatten.length < limit → y = z) :
    x = if l.flatten.length < limit then some z else none := by
  rw [e, C29_exact h l]
  split
  · next hl => rw [hy hl]; rfl
  · rfl

theorem wrap_bv {n : W64} {pos v : Nat} (h : v = (n.toNat * 64 % 2 ^ 64 + pos) % 2 ^ 64 * 8 % 2 ^ 64) :
    BitVec.ofNat 64 v = (n * 64 + BitVec.ofNat 64 pos) * 8 := by
  apply BitVec.eq_of_toNat_eq
  simp only [BitVec.toNat_ofNat, BitVec.toNat_mul, BitVec.toNat_add, h, show (64 : W64).toNat = 64 from rfl, show (8 : W64).toNat = 8 from rfl]
  omega

theorem Md4.sim : Sim md4C md4 Count.md4 (fun s => (s.state, s.blockLen)) State.blockLen fun _ => True := by
  refine counted_sim (c := md4) State.state State.blockLen rfl rfl (fun _ _ _ => rfl) (fun _ _ _ h => wbump_some h)
    (fun s buf v wf h => ?_)
  · refine bind_ok (digestPadC_eq (fun s => s) wf 0x80 (length_leBytes .. ▸ (by decide : 8 ≤ 64)) (fun _ _ _ => rfl) s.state) ?_
    have e : BitVec.ofNat 64 v = 8 * (64 * s.blockLen + BitVec.ofNat 64 buf.pos) := by
      rw [wrap_bv (n := s.blockLen) (pos := buf.pos), BitVec.mul_comm 8, BitVec.mul_comm 64]
      rw [← Option.some.inj h, Nat.mul_comm 64, Nat.mul_comm 8]
    rw [e]
    exact outLE_eq (by decide) rfl

theorem Md4.run_eq (l : List Bytes) : md4C.run l = some (Spec.Md4.md4 l.flatten) := by
  rw [sim.run lawful rfl rfl trivial l, C29_wrapping _ (.inl rfl), Option.map_some, C11_md4]

theorem Md5.sim : Sim md5C md5 Count.md5 (fun s => (s.state, s.blockLen)) State.blockLen fun _ => True := by
  refine counted_sim (c := md5) State.state State.blockLen rfl rfl (fun _ _ _ => rfl) (fun _ _ _ h => wbump_some h)
    (fun s buf v wf h => ?_)
  · refine bind_ok (digestPadC_eq (f := fun st b => compress st [b]) (fun s => s) wf 0x80 (length_leBytes .. ▸ (by decide : 8 ≤ 64)) (fun _ _ _ => rfl) s.state) ?_
    rw [wrap_bv (n := s.blockLen) (pos := buf.pos) (Option.some.inj h).symm]
    refine (outLE_eq (by decide) ?_).trans ?_
    · show 16 = 4 * List.length [_, _, _, _]; rfl
    · show _ = some (finalize s buf)
      rw [finalize, BlockBuffer.len64PaddingLE]; rfl

theorem Md5.run_eq (l : List Bytes) : md5C.run l = some (Spec.Md5.md5 l.flatten) := by
  rw [sim.run lawful rfl rfl trivial l, C29_wrapping _ (.inr (.inl rfl)), Option.map_some, C10_md5]

theorem Ripemd.sim {α : Type} {M : Mod α} (hM : ∀ s, (M.toList s).length = M.n) :
    Sim (ripemdC M) (core M) Count.ripemd (fun s => (s.h, s.blockLen)) State.blockLen fun _ => True := by
  refine counted_sim (c := core M) State.h State.blockLen rfl rfl (fun _ _ _ => rfl) (fun _ _ _ h => bump_some h)
    (fun s buf v wf h => ?_)
  refine bind_ok (digestPadC_eq (fun s => s) wf 0x80 (length_leBytes .. ▸ (by decide : 8 ≤ 64)) (fun _ _ _ => rfl) s.h) ?_
  rw [bitLen_bv (n := s.blockLen) h]
  exact outLE_eq (by decide) (by rw [hM])

theorem Ripemd.run_eq {α : Type} {M : Mod α} (hM : ∀ s, (M.toList s).length = M.n) (l : List Bytes) :
    (ripemdC M).run l = (Count.ripemd.core.finish (Count.ripemd.core.updates Count.ripemd.core.new l)).map fun _ =>
      (core M).finish ((core M).updates (core M).new l) :=
  (sim hM).run lawful rfl rfl trivial l

theorem Sha1.sim : Sim sha1C sha1 Count.sha1 (fun s => (s.h, s.blockLen)) State.blockLen fun _ => True := by
  refine counted_sim (c := sha1) State.h State.blockLen rfl rfl (fun _ _ _ => rfl) (fun _ _ _ h => bump_some h)
    (fun s buf v wf h => ?_)
  refine bind_ok (digestPadC_eq (f := fun st b => compressSoft st [b]) (fun s => s) wf 0x80 (length_beBytes .. ▸ (by decide : 8 ≤ 64)) (fun _ _ _ => rfl) s.h) ?_
  rw [bitLen_bv (n := s.blockLen) h]
  refine (outBE_eq (by decide) ?_).trans ?_
  · show 20 = 4 * List.length [_, _, _, _, _]; rfl
  · show _ = some (finalize s buf)
    rw [finalize, BlockBuffer.len64PaddingBE]; rfl

theorem Sha1.run_eq (l : List Bytes) :
    sha1C.run l = (Count.sha1.core.finish (Count.sha1.core.updates Count.sha1.core.new l)).map fun _ => sha1.finish (sha1.updates sha1.new l) :=
  sim.run lawful rfl rfl trivial l

theorem Sha256.sim {N : Nat} (s0 : State) (hN : N ≤ 32) :
    Sim (sha256C N) (varCore.ctWith N s0) Count.sha256 (fun s => (s.state, s.blockLen)) State.blockLen fun _ => True := by
  refine counted_sim (c := varCore.ctWith N s0) State.state State.blockLen rfl rfl
    (fun _ _ _ => rfl) (fun _ _ _ h => bump_some h) (fun s buf v wf h => ?_)
  refine bind_ok (digestPadC_eq (fun s => s) wf 0x80 (length_beBytes .. ▸ (by decide : 8 ≤ 64)) (fun _ _ _ => rfl) s.state) ?_
  rw [bitLen_bv (n := s.blockLen) h]
  exact bind_ok (outBE_eq (by decide) rfl) (truncateC_eq .left (by rw [length_bytesOfWordsBE]; exact hN))

theorem Sha256.run_eq {N : Nat} {s0 : State} (h0 : new N = some s0) (hz : s0.blockLen = 0) (hN : N ≤ 32) (l : List Bytes) :
    (sha256C N).run l = (Count.sha256.core.finish (Count.sha256.core.updates Count.sha256.core.new l)).map fun _ =>
      (varCore.ctWith N s0).finish ((varCore.ctWith N s0).updates (varCore.ctWith N s0).new l) :=
  (sim s0 hN).run (lawful.ct N s0) (by simp only [sha256C, countedC, h0, Option.map_some]; exact congrArg some (Prod.ext rfl hz.symm)) hz trivial l

theorem Sha512.sim {N : Nat} (s0 : State) (hN : N ≤ 64) :
    Sim (sha512C N) (varCore.ctWith N s0) Count.sha512 (fun s => (s.state, s.blockLen)) State.blockLen fun _ => True := by
  refine counted_sim (c := varCore.ctWith N s0) State.state State.blockLen rfl rfl
    (fun _ _ _ => rfl) (fun _ _ _ h => bump_some h) (fun s buf v wf h => ?_)
  refine bind_ok (digestPadC_eq (fun s => s) wf 0x80 (length_beBytes .. ▸ (by decide : 16 ≤ 128)) (fun _ _ _ => rfl) s.state) ?_
  rw [bitLen_bv (n := s.blockLen) h]
  exact bind_ok (outBE_eq (by decide) rfl) (truncateC_eq .left (by rw [length_bytesOfWordsBE]; exact hN))

theorem Sha512.run_eq {N : Nat} {s0 : State} (h0 : new N = some s0) (hz : s0.blockLen = 0) (hN : N ≤ 64) (l : List Bytes) :
    (sha512C N).run l = (Count.sha512.core.finish (Count.sha512.core.updates Count.sha512.core.new l)).map fun _ =>
      (varCore.ctWith N s0).finish ((varCore.ctWith N s0).updates (varCore.ctWith N s0).new l) :=
  (sim s0 hN).run (lawful.ct N s0) (by simp only [sha512C, countedC, h0, Option.map_some]; exact congrArg some (Prod.ext rfl hz.symm)) hz trivial l

theorem Sm3.sim : Sim sm3C sm3 Count.sm3 (fun s => (s.h.toList, s.blockLen)) State.blockLen fun _ => True := by
  refine counted_sim (c := sm3) (fun s => s.h.toList) State.blockLen rfl rfl (fun s _ hb => C60_sm3 s.h _ hb)
    (fun _ _ _ h => bump_some h) (fun s buf v wf h => ?_)
  refine bind_ok (digestPadC_eq V8.toList wf 0x80 (length_beBytes .. ▸ (by decide : 8 ≤ 64)) (fun s _ hb => compressC_eq s hb) s.h) ?_
  rw [bitLen_bv (n := s.blockLen) h]
  exact outBE_eq (by decide) rfl

theorem Sm3.run_eq (l : List Bytes) :
    sm3C.run l = (Count.sm3.core.finish (Count.sm3.core.updates Count.sm3.core.new l)).map fun _ => sm3.finish (sm3.updates sm3.new l) :=
  sim.run lawful rfl rfl trivial l

theorem Tiger.sim (ver2 : Bool) :
    Sim (tigerC ver2) (core TABLES ver2) Count.tiger (fun s => (s.state.toList, s.blockLen)) State.blockLen fun _ => True := by
  refine counted_sim (c := core TABLES ver2) (fun s => s.state.toList) State.blockLen rfl rfl
    (fun s _ hb => C60_tiger s.state _ hb) (fun _ _ _ h => bump_some h) (fun s buf v wf h => ?_)
  rw [bitLen_bv (n := s.blockLen) h]
  have pad (d : Byte) := digestPadC_eq V3.toList wf d
    (suffix := leBytes 8 (8 * (BitVec.ofNat 64 buf.pos + BitVec.ofNat 64 64 * s.blockLen)).toNat) (length_leBytes .. ▸ (by decide : 8 ≤ 64))
    (fun s _ hb => compressC_eq tiger_tables s hb) s.state
  cases ver2 with
  | true => exact bind_ok (pad 0x80) (outLE_eq (by decide) rfl)
  | false => exact bind_ok (pad 1) (outLE_eq (by decide) rfl)

theorem Tiger.run_eq (ver2 : Bool) (l : List Bytes) :
    (tigerC ver2).run l = (Count.tiger.core.finish (Count.tiger.core.updates Count.tiger.core.new l)).map fun _ =>
      (core TABLES ver2).finish ((core TABLES ver2).updates (core TABLES ver2).new l) :=
  (sim ver2).run (lawful TABLES ver2) rfl rfl trivial l

theorem Groestl.sim {g : Cfg} (G : g.Indices) (h4 : 2 ≤ g.cols) (he : g.cols % 2 = 0) {N : Nat} (s0 : State g.cols) (hN : N ≤ 4 * g.cols) :
    Sim (groestlC g N) ((varCore g).ctWith N s0) (Count.groestl (8 * g.cols)) (fun s => (s.state.toList, s.blocksLen)) State.blocksLen fun _ => True := by
  refine counted_sim (c := (varCore g).ctWith N s0) (fun s => s.state.toList) State.blocksLen rfl rfl
    (fun s _ hb => (groestl_checked g G s.state).1 _ hb) (fun _ _ _ h => bump_some h) (fun s buf v wf h => ?_)
  refine bind_ok (digestPadC_eq Arr.toList wf 0x80 (by rw [length_beBytes]; show 8 ≤ 8 * g.cols; omega) (fun s _ hb => compressC_eq G s hb) s.state) ?_
  refine bind_ok (pFinalC_eq G _) ?_
  have e : BitVec.ofNat 64 v = if 8 * g.cols - buf.pos ≤ 8 then s.blocksLen + 2 else s.blocksLen + 1 := by
    simp only [Count.groestl] at h
    split at h
    · next hp => rw [if_pos hp, add_some h, BitVec.ofNat_add, BitVec.ofNat_toNat, BitVec.setWidth_eq]; rfl
    · next hp => rw [if_neg hp, add_some h, BitVec.ofNat_add, BitVec.ofNat_toNat, BitVec.setWidth_eq]; rfl
  rw [e]
  refine bind_ok (slice_le (by rw [Arr.length_toList]; omega) (Nat.le_refl _)) ?_
  rw [List.take_of_length_le (Nat.le_of_eq (List.length_drop ..))]
  refine bind_ok (outBE_eq (by decide) (by rw [List.length_drop, Arr.length_toList]; omega)) ?_
  exact truncateC_eq .right (by rw [length_bytesOfWordsBE, List.length_drop, Arr.length_toList]; omega)

theorem Groestl.run_eq {g : Cfg} (G : g.Indices) (h4 : 2 ≤ g.cols) (he : g.cols % 2 = 0) {N : Nat} {s0 : State g.cols} (h0 : new g N = some s0) (hz : s0.blocksLen = 0)
    (hN : N ≤ 4 * g.cols) (l : List Bytes) :
    (groestlC g N).run l = ((Count.groestl (8 * g.cols)).core.finish ((Count.groestl (8 * g.cols)).core.updates (Count.groestl (8 * g.cols)).core.new l)).map fun _ =>
      ((varCore g).ctWith N s0).finish (((varCore g).ctWith N s0).updates ((varCore g).ctWith N s0).new l) :=
  (sim G h4 he s0 hN).run ((lawful (by omega)).ct N s0) (by simp only [groestlC, countedC, h0, Option.map_some]; exact congrArg some (Prod.ext rfl hz.symm)) hz trivial l

theorem Kupyna.length_bv {n : W64} {bs pos v : Nat}
    (h : ((Count.mul 128 n.toNat bs).bind fun x => (Count.add 128 x pos).bind fun y => Count.mul 128 8 y) = some v) :
    BitVec.ofNat 128 v = 8 * (BitVec.ofNat 128 n.toNat * BitVec.ofNat 128 bs + BitVec.ofNat 128 pos) := by
  cases h1 : Count.mul 128 n.toNat bs with
  | none => rw [h1] at h; cases h
  | some x =>
    rw [h1, Option.bind_some] at h
    cases h2 : Count.add 128 x pos with
    | none => rw [h2] at h; cases h
    | some y =>
      rw [h2, Option.bind_some] at h
      rw [mul_some h, add_some h2, mul_some h1, BitVec.ofNat_mul, BitVec.ofNat_add, BitVec.ofNat_mul]
      rfl

theorem Kupyna.sim {g : Cfg} (hc : g.cols < 2 ^ 32) (hL : g.lastShift < 2 ^ 32) (h8 : 8 ≤ g.cols) (he : g.cols % 2 = 0) {N : Nat} (hN : N ≤ 4 * g.cols) :
    Sim (kupynaC g N) ((varCore g).ctWith N (init g)) (Count.kupyna (8 * g.cols)) (fun s => (s.state.toList, s.blocksLen)) State.blocksLen fun _ => True := by
  refine counted_sim (c := (varCore g).ctWith N (init g)) (fun s => s.state.toList) State.blocksLen rfl rfl
    (fun s _ hb => kupyna_checked g hc hL s.state _ hb) (fun _ _ _ h => bump_some h) (fun s buf v wf h => ?_)
  refine bind_ok (slice_le (Nat.zero_le _) (length_leBytes .. ▸ (by decide : 12 ≤ 16))) ?_
  refine bind_ok (digestPadC_eq Arr.toList wf 0x80 (by rw [List.length_take]; show _ ≤ 8 * g.cols; omega)
    (fun s _ hb => compressC_eq hc hL s hb) s.state) ?_
  refine bind_ok (outputC_eq hc hL _ (by rw [List.length_replicate]; omega)) ?_
  rw [length_bv (n := s.blocksLen) h]
  exact truncateC_eq .right (by rw [length_bytesOfWordsBE, List.length_drop, Arr.length_toList]; omega)

theorem Kupyna.run_eq {g : Cfg} (hc : g.cols < 2 ^ 32) (hL : g.lastShift < 2 ^ 32) (h8 : 8 ≤ g.cols) (he : g.cols % 2 = 0) {N : Nat}
    (h0 : new g N = some (init g)) (hN : N ≤ 4 * g.cols) (l : List Bytes) :
    (kupynaC g N).run l = ((Count.kupyna (8 * g.cols)).core.finish ((Count.kupyna (8 * g.cols)).core.updates (Count.kupyna (8 * g.cols)).core.new l)).map fun _ =>
      ((varCore g).ctWith N (init g)).finish (((varCore g).ctWith N (init g)).updates ((varCore g).ctWith N (init g)).new l) :=
  (sim hc hL h8 he hN).run ((lawful h8).ct N (init g)) (by simp only [kupynaC, countedC, h0, Option.map_some]; rfl) rfl trivial l

theorem Jh.sim {N : Nat} (s0 : State) (hN : N ≤ 64) :
    Sim (jhC N) (varCore.ctWith N s0) Count.jh (fun s => (s.state, s.blockLen)) State.blockLen fun _ => True := by
  refine counted_sim (c := varCore.ctWith N s0) State.state State.blockLen rfl rfl
    (fun _ _ _ => rfl) (fun _ _ _ h => wbump_some h) (fun s buf v wf h => ?_)
  · rw [wrap_bv (n := s.blockLen) (pos := buf.pos) (Option.some.inj h).symm]
    have pad (b : BlockBuffer) (wf : b.WF .eager 64) (d : Byte) (x : Bytes) (hx : x.length ≤ 64) (s : V8 W128) :
        digestPadC 64 b d x (fun s b => some (f8 s b)) s = some (b.digestPad 64 d x f8 s) :=
      digestPadC_eq (fun s => s) wf d hx (fun _ _ _ => rfl) s
    have e : padC buf (beBytes 8 ((s.blockLen * 64 + BitVec.ofNat 64 buf.pos) * 8).toNat) s.state = some (
        if buf.pos = 0 then buf.digestPad 64 0x80 (beBytes 8 ((s.blockLen * 64 + BitVec.ofNat 64 buf.pos) * 8).toNat) f8 s.state
        else (buf.padWithZeros 64).2.digestPad 64 0 (beBytes 8 ((s.blockLen * 64 + BitVec.ofNat 64 buf.pos) * 8).toNat) f8
          (buf.digestPad 64 0x80 [] f8 s.state)) := by
      unfold padC
      split
      · exact pad buf wf _ _ (length_beBytes .. ▸ (by decide : 8 ≤ 64)) s.state
      · refine bind_ok (pad buf wf 0x80 [] (Nat.zero_le _) s.state) (pad (buf.padWithZeros 64).2 ?_ 0 _ (length_beBytes .. ▸ (by decide : 8 ≤ 64)) _)
        refine ⟨?_, (by decide : 0 < 64)⟩
        have : buf.pos < 64 := wf.2
        have : buf.data.length = 64 := wf.1
        simp only [BlockBuffer.padWithZeros, List.length_append, List.length_take, List.length_replicate]; omega
    refine bind_ok e ?_
    generalize hst : (ite (buf.pos = 0) _ _) = st
    have hl : (bytesOfWordsLE st.toList).length = 128 := by rw [length_bytesOfWordsLE]; rfl
    refine bind_ok (slice_le (by omega) (Nat.le_refl _)) ?_
    rw [List.take_of_length_le (Nat.le_of_eq (List.length_drop ..))]
    refine bind_ok (copy_all (a := List.replicate 64 0) (by simp [hl])) ?_
    refine (truncateC_eq .right (by simp [hl, hN])).trans ?_
    rw [← hst]; rfl

theorem Jh.run_eq {N : Nat} {s0 : State} (h0 : new N = some s0) (hz : s0.blockLen = 0) (hN : N ≤ 64) (l : List Bytes) :
    (jhC N).run l = some ((varCore.ctWith N s0).finish ((varCore.ctWith N s0).updates (varCore.ctWith N s0).new l)) := by
  rw [(sim s0 hN).run (lawful.ct N s0) (by simp only [jhC, countedC, h0, Option.map_some]; exact congrArg some (Prod.ext rfl hz.symm)) hz trivial l,
    C29_wrapping _ (.inr (.inr rfl))]; rfl

end Hashes
