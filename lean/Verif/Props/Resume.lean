import Verif.Props.Run
import Verif.Proof.Resume
/-
C68: hashers restored by `deserialize` from arbitrary bytes, in builds with overflow checks.  `resume s buf l` continues from the core
state `s` and the buffer `buf` with one `update` per element of `l` and finalizes, with Rust's run-time checks; `none` is a panic.
-/
namespace Hashes
open Rs

/-- The serializable hashers with a checked block counter: the checked hasher, the hasher, its state in the checked hasher, its
counter, and the number of message bytes from which on there is a panic. -/
inductive CountsBlocks : {w : Nat} → {σ τ : Type} → CoreC τ Bytes → Core σ Bytes → (σ → τ) → (σ → BitVec w) → Nat → Prop
  | sha1 : CountsBlocks Sha1.sha1C Sha1.sha1 (fun s => (s.h, s.blockLen)) Sha1.State.blockLen (2 ^ 61)
  | sha256 (N : Nat) (c : Core Sha256.State Bytes) (h : Sha256.varCore.ct N = some c) :
      CountsBlocks (Sha256.sha256C N) c (fun s => (s.state, s.blockLen)) Sha256.State.blockLen (2 ^ 61)
  | sha512 (N : Nat) (c : Core Sha512.State Bytes) (h : Sha512.varCore.ct N = some c) :
      CountsBlocks (Sha512.sha512C N) c (fun s => (s.state, s.blockLen)) Sha512.State.blockLen (2 ^ 125)
  | sm3 : CountsBlocks Sm3.sm3C Sm3.sm3 (fun s => (s.h.toList, s.blockLen)) Sm3.State.blockLen (2 ^ 61)
  | ripemd128 : CountsBlocks (Ripemd.ripemdC Ripemd.C128.M) Ripemd.ripemd128 (fun s => (s.h, s.blockLen)) Ripemd.State.blockLen (2 ^ 61)
  | ripemd160 : CountsBlocks (Ripemd.ripemdC Ripemd.C160.M) Ripemd.ripemd160 (fun s => (s.h, s.blockLen)) Ripemd.State.blockLen (2 ^ 61)
  | ripemd256 : CountsBlocks (Ripemd.ripemdC Ripemd.C256.M) Ripemd.ripemd256 (fun s => (s.h, s.blockLen)) Ripemd.State.blockLen (2 ^ 61)
  | ripemd320 : CountsBlocks (Ripemd.ripemdC Ripemd.C320.M) Ripemd.ripemd320 (fun s => (s.h, s.blockLen)) Ripemd.State.blockLen (2 ^ 61)
  | tiger : CountsBlocks (Tiger.tigerC false) Tiger.tiger (fun s => (s.state.toList, s.blockLen)) Tiger.State.blockLen (2 ^ 61)
  | tiger2 : CountsBlocks (Tiger.tigerC true) Tiger.tiger2 (fun s => (s.state.toList, s.blockLen)) Tiger.State.blockLen (2 ^ 61)
  | groestl (g : Groestl.Cfg) (hg : g = Groestl.short ∨ g = Groestl.long) (N : Nat) (c : Core (Groestl.State g.cols) Bytes)
      (h : Groestl.core g N = some c) :
      CountsBlocks (Groestl.groestlC g N) c (fun s => (s.state.toList, s.blocksLen)) Groestl.State.blocksLen ((2 ^ 64 - 1) * c.bs - 8)
  | kupyna (g : Kupyna.Cfg) (hg : g = Kupyna.short ∨ g = Kupyna.long) (N : Nat) (c : Core (Kupyna.State g.cols) Bytes)
      (h : Kupyna.core g N = some c) :
      CountsBlocks (Kupyna.kupynaC g N) c (fun s => (s.state.toList, s.blocksLen)) Kupyna.State.blocksLen (2 ^ 64 * c.bs)

theorem CountsBlocks.laws {w : Nat} {σ τ : Type} {cc : CoreC τ Bytes} {c : Core σ Bytes} {rep : σ → τ} {ctr : σ → BitVec w} {limit : Nat}
    (H : CountsBlocks cc c rep ctr limit) : ∃ bs f value, Sim cc c ⟨.eager, bs, Count.bump w, f⟩ rep ctr (fun _ => True) ∧
      Counted ⟨.eager, bs, Count.bump w, f⟩ limit value ∧ (∃ inv, c.Lawful inv ∧ c.SerLawful inv) ∧ ctr c.init = 0 ∧
      cc.init = some (rep c.init) ∧ limit ≤ 2 ^ w * c.bs := by
  cases H with
  | sha1 => exact ⟨_, _, _, Sha1.sim, .sha1, ⟨_, Sha1.lawful, Sha1.serLawful⟩, rfl, rfl, by decide⟩
  | sha256 N _ h =>
    obtain ⟨hN, s0, h0, rfl⟩ := VarCore.ct_inv h
    have h0 : Sha256.new N = some s0 := h0
    have hz : s0.blockLen = 0 := by unfold Sha256.new at h0; split at h0 <;> cases h0 <;> rfl
    exact ⟨_, _, _, Sha256.sim s0 hN, .sha256, ⟨_, Sha256.lawful.ct N s0, Sha256.serLawful.ct N s0⟩, hz,
      by simp only [Sha256.sha256C, countedC, h0, Option.map_some]; exact congrArg some (Prod.ext rfl hz.symm), by show 2 ^ 61 ≤ 2 ^ 64 * 64; decide⟩
  | sha512 N _ h =>
    obtain ⟨hN, s0, h0, rfl⟩ := VarCore.ct_inv h
    have h0 : Sha512.new N = some s0 := h0
    have hz : s0.blockLen = 0 := by unfold Sha512.new at h0; split at h0 <;> cases h0 <;> rfl
    exact ⟨_, _, _, Sha512.sim s0 hN, .sha512, ⟨_, Sha512.lawful.ct N s0, Sha512.serLawful.ct N s0⟩, hz,
      by simp only [Sha512.sha512C, countedC, h0, Option.map_some]; exact congrArg some (Prod.ext rfl hz.symm), by show 2 ^ 125 ≤ 2 ^ 128 * 128; decide⟩
  | sm3 => exact ⟨_, _, _, Sm3.sim, .sm3, ⟨_, Sm3.lawful, Sm3.serLawful⟩, rfl, rfl, by decide⟩
  | ripemd128 => exact ⟨_, _, _, Ripemd.sim fun _ => rfl, .ripemd, ⟨_, Ripemd.lawful, Ripemd.serLawful Ripemd.laws128⟩, rfl, rfl, by decide⟩
  | ripemd160 => exact ⟨_, _, _, Ripemd.sim fun _ => rfl, .ripemd, ⟨_, Ripemd.lawful, Ripemd.serLawful Ripemd.laws160⟩, rfl, rfl, by decide⟩
  | ripemd256 => exact ⟨_, _, _, Ripemd.sim fun _ => rfl, .ripemd, ⟨_, Ripemd.lawful, Ripemd.serLawful Ripemd.laws256⟩, rfl, rfl, by decide⟩
  | ripemd320 =>
    exact ⟨_, _, _, Ripemd.sim (M := Ripemd.C320.M) fun _ => rfl, .ripemd, ⟨_, Ripemd.lawful, Ripemd.serLawful Ripemd.laws320⟩, rfl, rfl, by decide⟩
  | tiger => exact ⟨_, _, _, Tiger.sim false, .tiger, ⟨_, Tiger.lawful _ _, Tiger.serLawful _ _⟩, rfl, rfl, by decide⟩
  | tiger2 => exact ⟨_, _, _, Tiger.sim true, .tiger, ⟨_, Tiger.lawful _ _, Tiger.serLawful _ _⟩, rfl, rfl, by decide⟩
  | groestl g hg N _ h =>
    obtain ⟨hN, s0, h0, rfl⟩ := VarCore.ct_inv h
    have h0 : Groestl.new g N = some s0 := h0
    have hz : s0.blocksLen = 0 := by unfold Groestl.new at h0; split at h0 <;> cases h0; rfl
    have hN' : N ≤ 4 * g.cols := by unfold Groestl.new at h0; split at h0 <;> [cases h0; omega]
    have hi : (Groestl.groestlC g N).init = some (s0.state.toList, s0.blocksLen) := by
      simp only [Groestl.groestlC, countedC, h0, Option.map_some, hz]
    rcases hg with rfl | rfl
    · exact ⟨_, _, _, Groestl.sim Groestl.indices_short (by decide) rfl s0 hN', .groestl Groestl.short (.inl rfl),
        ⟨_, (Groestl.lawful (by decide)).ct _ _, (Groestl.serLawful (by decide)).ct _ _⟩, hz, hi, by show (2 ^ 64 - 1) * 64 - 8 ≤ 2 ^ 64 * 64; decide⟩
    · exact ⟨_, _, _, Groestl.sim Groestl.indices_long (by decide) rfl s0 hN', .groestl Groestl.long (.inr rfl),
        ⟨_, (Groestl.lawful (by decide)).ct _ _, (Groestl.serLawful (by decide)).ct _ _⟩, hz, hi, by show (2 ^ 64 - 1) * 128 - 8 ≤ 2 ^ 64 * 128; decide⟩
  | kupyna g hg N _ h =>
    obtain ⟨hN, s0, h0, rfl⟩ := VarCore.ct_inv h
    have h0 : Kupyna.new g N = some s0 := h0
    have hN' : N ≤ 4 * g.cols := by unfold Kupyna.new at h0; split at h0 <;> [cases h0; omega]
    have e : s0 = Kupyna.init g := by unfold Kupyna.new at h0; split at h0 <;> cases h0; rfl
    subst e
    have hi : (Kupyna.kupynaC g N).init = some ((Kupyna.init g).state.toList, (Kupyna.init g).blocksLen) := by
      simp only [Kupyna.kupynaC, countedC, h0, Option.map_some]; rfl
    rcases hg with rfl | rfl
    · exact ⟨_, _, _, Kupyna.sim (by decide) (by decide) (by decide) rfl hN', .kupyna Kupyna.short (.inl rfl),
        ⟨_, (Kupyna.lawful (by decide)).ct _ _, (Kupyna.serLawful (by decide)).ct _ _⟩, rfl, hi, Nat.le_refl _⟩
    · exact ⟨_, _, _, Kupyna.sim (by decide) (by decide) (by decide) rfl hN', .kupyna Kupyna.long (.inr rfl),
        ⟨_, (Kupyna.lawful (by decide)).ct _ _, (Kupyna.serLawful (by decide)).ct _ _⟩, rfl, hi, Nat.le_refl _⟩

/-- C68. Any bytes accepted as a saved state, any further chunks: there is a panic exactly when the length claimed by the state (the
blocks it says were hashed and the buffered bytes) together with the further bytes reaches the limit of a fresh hasher. Otherwise the
result is that of the hasher without overflow checks. -/
theorem C68_counted {w : Nat} {σ τ : Type} {cc : CoreC τ Bytes} {c : Core σ Bytes} {rep : σ → τ} {ctr : σ → BitVec w} {limit : Nat}
    (H : CountsBlocks cc c rep ctr limit) (raw : Bytes) (h : Hasher σ) (hl : c.load raw = some h) (l : List Bytes) :
    cc.resume (rep h.core) h.buf l =
      if c.bs * (ctr h.core).toNat + h.buf.pos + l.flatten.length < limit then some (c.finish (c.updates h l)) else none := by
  obtain ⟨_, _, _, S, K, ⟨_, L, _⟩, -⟩ := H.laws
  exact S.resume_limit K L h trivial (load_parts hl).2 l

/-- C68, states saved by the library: a hasher saved after the chunks `l₀` and restored behaves as if it had never been interrupted,
also in when it panics. -/
theorem C68_counted_saved {w : Nat} {σ τ : Type} {cc : CoreC τ Bytes} {c : Core σ Bytes} {rep : σ → τ} {ctr : σ → BitVec w} {limit : Nat}
    (H : CountsBlocks cc c rep ctr limit) (l₀ l : List Bytes) (h₀ : l₀.flatten.length < limit) :
    ∃ h, c.load (c.save (c.updates c.new l₀)) = some h ∧ cc.resume (rep h.core) h.buf l = cc.run (l₀ ++ l) := by
  obtain ⟨bs, f, _, S, K, ⟨inv, L, Se⟩, ctr0, init, hlim⟩ := H.laws
  have r := (Core.Rep.new L).updates L l₀
  rw [List.nil_append] at r
  obtain ⟨h, hl, r'⟩ := r.save_load L Se
  refine ⟨h, hl, ?_⟩
  rw [C68_counted H _ h hl l, (S.held ctr0 trivial r' (Nat.div_lt_of_lt_mul (by rw [Nat.mul_comm]; omega))).2]
  rw [limit_run (z := c.finish (c.updates h l)) K (S.run L init ctr0 trivial (l₀ ++ l)) fun _ => ?_]
  · rw [List.flatten_append, List.length_append]
  · have e1 := ((Core.Rep.new L).updates L (l₀ ++ l)).finish L
    have e2 := (r'.updates L l).finish L
    rw [List.nil_append, List.flatten_append] at e1
    rw [e1, e2]

/-- C68 (FSB), every table of the size of pi.bin. -/
theorem C68_fsb (P : Fsb.Params) (hP : P ∈ Fsb.all) (PI : Bytes) (hPI : PI.length = 272384) (raw : Bytes) (h : Hasher Fsb.State)
    (hl : (Fsb.core P PI).load raw = some h) (l : List Bytes) :
    ∃ H d, h.core.state = some H ∧ (Fsb.core P PI).finish ((Fsb.core P PI).updates h l) = some d ∧
      (Fsb.fsbC P PI).resume (H, h.core.blocksLen) h.buf l =
        if P.bs * h.core.blocksLen.toNat + h.buf.pos + l.flatten.length < 2 ^ 61 then some d else none := by
  have hs : ∀ P ∈ Fsb.all, P.n / P.r * (P.p / 8 + 1) ≤ 272384 := by decide
  have hp : P.n / P.r * (P.p / 8 + 1) ≤ PI.length := by rw [hPI]; exact hs P hP
  have g := Fsb.good hP
  obtain ⟨h1, h2⟩ := load_parts hl
  have ok := Fsb.ok_load h1
  obtain ⟨H, hH, -⟩ := id ok
  have e := (Fsb.sim hP hp).resume_limit (.fsb P hP) (Fsb.bare_lawful g hp) h ok h2 l
  have r := updates_rel_from (Fsb.lawful g hp) (d := Fsb.bare P PI) (fun s t => s = t ∧ Fsb.Ok P s) rfl rfl l h h
    (fun x _ s t blks hb _ hr => ⟨congrArg (Fsb.updateBlocks P PI · blks) hr.1, (Fsb.lawful g hp).inv_update s blks hb hr.2⟩) h2 rfl ⟨rfl, ok⟩
  have f := Fsb.finalize_some g hp r.2.1.2 r.2.2
  rw [show (Fsb.bare P PI).finish ((Fsb.bare P PI).updates h l) =
      (Fsb.finalize P PI ((Fsb.core P PI).updates h l).core ((Fsb.core P PI).updates h l).buf).getD [] by rw [r.2.1.1, r.1]; rfl, hH] at e
  exact ⟨H, _, hH, f, e⟩

/-! ### Hashers that cannot panic -/

/-- The serializable hashers without a counter that is checked. -/
inductive Uncounted : {σ τ : Type} → CoreC τ Bytes → Core σ Bytes → (σ → τ) → Prop
  | md2 : Uncounted Md2.md2C Md2.md2 id
  | md4 : Uncounted Md4.md4C Md4.md4 fun s => (s.state, s.blockLen)
  | md5 : Uncounted Md5.md5C Md5.md5 fun s => (s.state, s.blockLen)
  | streebog (N : Nat) (c : Core Streebog.State Bytes) (h : Streebog.core N = some c) :
      Uncounted (Streebog.streebogC N) c fun s => (s.h.toList, s.n.toList, s.sigma.toList)
  | shabal (N : Nat) (c : Core Shabal.State Bytes) (h : Shabal.core N = some c) : Uncounted (Shabal.shabalC N) c Shabal.State.toC
  | keccak224 : Uncounted (Sha3.fixedC Sha3.f24 28 144 0x01) Sha3.keccak224 id
  | keccak256 : Uncounted (Sha3.fixedC Sha3.f24 32 136 0x01) Sha3.keccak256 id
  | keccak384 : Uncounted (Sha3.fixedC Sha3.f24 48 104 0x01) Sha3.keccak384 id
  | keccak512 : Uncounted (Sha3.fixedC Sha3.f24 64 72 0x01) Sha3.keccak512 id
  | keccak256Full : Uncounted (Sha3.fixedC Sha3.f24 200 136 0x01) Sha3.keccak256Full id
  | sha3_224 : Uncounted (Sha3.fixedC Sha3.f24 28 144 0x06) Sha3.sha3_224 id
  | sha3_256 : Uncounted (Sha3.fixedC Sha3.f24 32 136 0x06) Sha3.sha3_256 id
  | sha3_384 : Uncounted (Sha3.fixedC Sha3.f24 48 104 0x06) Sha3.sha3_384 id
  | sha3_512 : Uncounted (Sha3.fixedC Sha3.f24 64 72 0x06) Sha3.sha3_512 id

theorem Sha3.fixed_load {N rate : Nat} (h0 : 0 < rate) (h8 : rate % 8 = 0) (hN : N ≤ 200) (pad : Byte) {raw : Bytes} {h : Hasher Sha3.Lanes}
    (hl : (Sha3.fixed Sha3.f24 N rate pad).load raw = some h) (l : List Bytes) :
    (Sha3.fixedC Sha3.f24 N rate pad).resume h.core h.buf l =
      some ((Sha3.fixed Sha3.f24 N rate pad).finish ((Sha3.fixed Sha3.f24 N rate pad).updates h l)) :=
  Sha3.fixed_resume Sha3.perm24 h0 h8 hN pad h (Sha3.lanes_load (load_parts hl).1) (load_parts hl).2 l

/-- C68. These never panic, whatever state they were given. -/
theorem C68_uncounted {σ τ : Type} {cc : CoreC τ Bytes} {c : Core σ Bytes} {rep : σ → τ} (H : Uncounted cc c rep) (raw : Bytes) (h : Hasher σ)
    (hl : c.load raw = some h) (l : List Bytes) : cc.resume (rep h.core) h.buf l = some (c.finish (c.updates h l)) := by
  have wrap {k : Count.Book 64} {bs : Nat} {f : Nat → Nat → Option Nat} (hk : k = ⟨.eager, bs, Count.wbump 64, f⟩) (hf : ∀ n p, (f n p).isSome)
      (n : W64) (b : BlockBuffer) (l : List Bytes) : ∃ v, k.core.finish (k.core.updates ⟨some n, b⟩ l) = some v := by
    have key : ∀ (l : List Bytes) (n : W64) (b : BlockBuffer), ∃ m, (k.core.updates ⟨some n, b⟩ l).core = some m := by
      intro l
      induction l with
      | nil => exact fun n b => ⟨n, rfl⟩
      | cons x l ih =>
        intro n b
        have : ∃ m, (k.core.update ⟨some n, b⟩ x).core = some m := by
          show ∃ m, (b.digestBlocks k.core.kind k.core.bs x k.core.updateBlocks (some n)).2 = some m
          have e : ∀ n blks, k.core.updateBlocks (some n) blks = some (n + BitVec.ofNat 64 blks.length) := by subst hk; exact fun _ _ => rfl
          unfold BlockBuffer.digestBlocks
          simp only [e]
          split
          · exact ⟨n, rfl⟩
          · split <;> (simp only [e]; split <;> exact ⟨_, rfl⟩)
        obtain ⟨m, hm⟩ := this
        obtain ⟨m', hm'⟩ := ih m (k.core.update ⟨some n, b⟩ x).buf
        refine ⟨m', ?_⟩
        show (k.core.updates (k.core.update ⟨some n, b⟩ x) l).core = _
        rw [← hm'] ; congr 2
        cases hq : k.core.update ⟨some n, b⟩ x with
        | mk c b => rw [hq] at hm; simp only at hm; rw [hm]
    obtain ⟨m, hm⟩ := key l n b
    refine Option.isSome_iff_exists.1 ?_
    rw [Core.finish, hm]
    subst hk
    exact hf _ _
  cases H with
  | md2 => exact Md2.resume_eq h (Md2.shape_load (load_parts hl).1) (load_parts hl).2 l
  | md4 =>
    obtain ⟨v, hv⟩ := wrap (k := Count.md4) rfl (fun _ _ => rfl) h.core.blockLen h.buf l
    exact (Md4.sim.resume Md4.lawful h trivial (load_parts hl).2 l).trans (by rw [hv]; rfl)
  | md5 =>
    obtain ⟨v, hv⟩ := wrap (k := Count.md5) rfl (fun _ _ => rfl) h.core.blockLen h.buf l
    exact (Md5.sim.resume Md5.lawful h trivial (load_parts hl).2 l).trans (by rw [hv]; rfl)
  | streebog N _ hc =>
    obtain ⟨hN, s0, -, rfl⟩ := VarCore.ct_inv hc
    exact Streebog.resume_eq s0 hN h (load_parts hl).2 l
  | shabal N _ hc =>
    obtain ⟨hN, s0, -, rfl⟩ := VarCore.ct_inv hc
    exact Shabal.resume_eq s0 hN h (load_parts hl).2 l
  | keccak224 => exact Sha3.fixed_load (by decide) rfl (by decide) _ hl l
  | keccak256 => exact Sha3.fixed_load (by decide) rfl (by decide) _ hl l
  | keccak384 => exact Sha3.fixed_load (by decide) rfl (by decide) _ hl l
  | keccak512 => exact Sha3.fixed_load (by decide) rfl (by decide) _ hl l
  | keccak256Full => exact Sha3.fixed_load (by decide) rfl (by decide) _ hl l
  | sha3_224 => exact Sha3.fixed_load (by decide) rfl (by decide) _ hl l
  | sha3_256 => exact Sha3.fixed_load (by decide) rfl (by decide) _ hl l
  | sha3_384 => exact Sha3.fixed_load (by decide) rfl (by decide) _ hl l
  | sha3_512 => exact Sha3.fixed_load (by decide) rfl (by decide) _ hl l

/-- C68 (GOST R 34.11-94): every table of permutation rows, slices that fit in the address space. -/
theorem C68_gost94 (sb : List (List Byte)) (hb : Gost94.IsBox sb) (h0 : Bytes) (hh : h0.length = 32) (raw : Bytes) (h : Hasher Gost94.State)
    (hl : (Gost94.gost94 sb h0).load raw = some h) (l : List Bytes) (hx : ∀ x ∈ l, x.length < 2 ^ 64) :
    (Gost94.gost94C sb h0).resume h.core.toC h.buf l = some ((Gost94.gost94 sb h0).finish ((Gost94.gost94 sb h0).updates h l)) :=
  Gost94.resume_eq hb hh h (Gost94.shape_load (load_parts hl).1) (load_parts hl).2 l hx

theorem Whirlpool.fitsAll_iff (l : List Bytes) (p : Nat) : Whirlpool.fitsAll p l = true ↔ slicesFit p l := by
  induction l generalizing p with
  | nil => simp [Whirlpool.fitsAll, slicesFit]
  | cons x l ih => simp only [Whirlpool.fitsAll, slicesFit, Bool.and_eq_true, decide_eq_true_eq, ih]; exact Iff.rfl

/-- C68 (Whirlpool): as for a fresh hasher with that many bytes buffered; the counter in the state does not matter. -/
theorem C68_whirlpool (raw : Bytes) (h : Hasher Whirlpool.State) (hl : Whirlpool.whirlpool.load raw = some h) (l : List Bytes) :
    (slicesFit h.buf.pos l → Whirlpool.whirlpoolC.resume (h.core.state.toList, h.core.bitLen.toList) h.buf l =
      some (Whirlpool.whirlpool.finish (Whirlpool.whirlpool.updates h l))) ∧
    (¬ slicesFit h.buf.pos l → Whirlpool.whirlpoolC.resume (h.core.state.toList, h.core.bitLen.toList) h.buf l = none) := by
  rw [Whirlpool.resume_eq h (load_parts hl).2 l]
  exact ⟨fun hf => if_pos ((Whirlpool.fitsAll_iff l _).2 hf), fun hf => if_neg fun h' => hf ((Whirlpool.fitsAll_iff l _).1 h')⟩

/-! ### Every serializable hasher is one of these -/

/-- C68. Each serializable hasher of the library is covered by one of the theorems above. -/
theorem C68_coverage {σ ω : Type} {c : Core σ ω} (hc : Serializable c) :
    (∃ (w : Nat) (τ : Type) (cc : CoreC τ Bytes) (c' : Core σ Bytes) (rep : σ → τ) (ctr : σ → BitVec w) (limit : Nat),
      CountsBlocks cc c' rep ctr limit ∧ HEq c c') ∨
    (∃ (τ : Type) (cc : CoreC τ Bytes) (c' : Core σ Bytes) (rep : σ → τ), Uncounted cc c' rep ∧ HEq c c') ∨
    HEq c Whirlpool.whirlpool ∨ (∃ sb h0, h0.length = 32 ∧ HEq c (Gost94.gost94 sb h0)) ∨
    (∃ P ∈ Fsb.all, ∃ PI : Bytes, PI.length = 272384 ∧ HEq c (Fsb.core P PI)) := by
  cases hc with
  | sha1 => exact .inl ⟨_, _, _, _, _, _, _, .sha1, .rfl⟩
  | sha224 => exact .inl ⟨_, _, _, _, _, _, _, .sha256 28 _ rfl, .rfl⟩
  | sha256 => exact .inl ⟨_, _, _, _, _, _, _, .sha256 32 _ rfl, .rfl⟩
  | sha512_224 => exact .inl ⟨_, _, _, _, _, _, _, .sha512 28 _ rfl, .rfl⟩
  | sha512_256 => exact .inl ⟨_, _, _, _, _, _, _, .sha512 32 _ rfl, .rfl⟩
  | sha384 => exact .inl ⟨_, _, _, _, _, _, _, .sha512 48 _ rfl, .rfl⟩
  | sha512 => exact .inl ⟨_, _, _, _, _, _, _, .sha512 64 _ rfl, .rfl⟩
  | md2 => exact .inr (.inl ⟨_, _, _, _, .md2, .rfl⟩)
  | md4 => exact .inr (.inl ⟨_, _, _, _, .md4, .rfl⟩)
  | md5 => exact .inr (.inl ⟨_, _, _, _, .md5, .rfl⟩)
  | sm3 => exact .inl ⟨_, _, _, _, _, _, _, .sm3, .rfl⟩
  | whirlpool => exact .inr (.inr (.inl .rfl))
  | ripemd128 => exact .inl ⟨_, _, _, _, _, _, _, .ripemd128, .rfl⟩
  | ripemd160 => exact .inl ⟨_, _, _, _, _, _, _, .ripemd160, .rfl⟩
  | ripemd256 => exact .inl ⟨_, _, _, _, _, _, _, .ripemd256, .rfl⟩
  | ripemd320 => exact .inl ⟨_, _, _, _, _, _, _, .ripemd320, .rfl⟩
  | keccak224 => exact .inr (.inl ⟨_, _, _, _, .keccak224, .rfl⟩)
  | keccak256 => exact .inr (.inl ⟨_, _, _, _, .keccak256, .rfl⟩)
  | keccak384 => exact .inr (.inl ⟨_, _, _, _, .keccak384, .rfl⟩)
  | keccak512 => exact .inr (.inl ⟨_, _, _, _, .keccak512, .rfl⟩)
  | keccak256Full => exact .inr (.inl ⟨_, _, _, _, .keccak256Full, .rfl⟩)
  | sha3_224 => exact .inr (.inl ⟨_, _, _, _, .sha3_224, .rfl⟩)
  | sha3_256 => exact .inr (.inl ⟨_, _, _, _, .sha3_256, .rfl⟩)
  | sha3_384 => exact .inr (.inl ⟨_, _, _, _, .sha3_384, .rfl⟩)
  | sha3_512 => exact .inr (.inl ⟨_, _, _, _, .sha3_512, .rfl⟩)
  | tiger => exact .inl ⟨_, _, _, _, _, _, _, .tiger, .rfl⟩
  | tiger2 => exact .inl ⟨_, _, _, _, _, _, _, .tiger2, .rfl⟩
  | gost94 sb h0 hh => exact .inr (.inr (.inr (.inl ⟨sb, h0, hh, .rfl⟩)))
  | groestlShort N _ h => exact .inl ⟨_, _, _, _, _, _, _, .groestl Groestl.short (.inl rfl) N _ h, .rfl⟩
  | groestlLong N _ h => exact .inl ⟨_, _, _, _, _, _, _, .groestl Groestl.long (.inr rfl) N _ h, .rfl⟩
  | kupynaShort N _ h => exact .inl ⟨_, _, _, _, _, _, _, .kupyna Kupyna.short (.inl rfl) N _ h, .rfl⟩
  | kupynaLong N _ h => exact .inl ⟨_, _, _, _, _, _, _, .kupyna Kupyna.long (.inr rfl) N _ h, .rfl⟩
  | streebog N _ h => exact .inr (.inl ⟨_, _, _, _, .streebog N _ h, .rfl⟩)
  | shabal N _ h => exact .inr (.inl ⟨_, _, _, _, .shabal N _ h, .rfl⟩)
  | fsb P hP PI h => exact .inr (.inr (.inr (.inr ⟨P, hP, PI, h, .rfl⟩)))

/-! Forged states: SHA-256 with the counter at its maximum is accepted and panics when finalized, and so does the state that claims 2^55
blocks; one block less is fine. MD5 accepts any counter. -/

def forged (n : Nat) : Hasher Sha256.State := ⟨⟨Sha256.H256_256, BitVec.ofNat 64 n⟩, BlockBuffer.empty 64⟩

theorem forged_load (n : Nat) : ∃ h, Sha256.sha256.load (Sha256.sha256.save (forged n)) = some h ∧ h.core.blockLen = BitVec.ofNat 64 n ∧ h.buf.pos = 0 := by
  obtain ⟨b, hb, wf, hc⟩ := BlockBuffer.deserialize_serialize (k := .eager) (bs := 64) (b := BlockBuffer.empty 64) (by decide) ⟨rfl, by decide⟩
  refine ⟨⟨(forged n).core, b⟩, ?_, rfl, ?_⟩
  · have S : Sha256.sha256.SerLawful (fun _ => True) := Sha256.serLawful.ct _ _
    simp only [Core.load, Core.save]
    have hl := S.len (forged n).core trivial
    rw [List.take_left' hl, List.drop_left' hl, S.round _ trivial]
    exact (congrArg (fun o => match some (forged n).core, o with | some s, some b => some (⟨s, b⟩ : Hasher Sha256.State) | _, _ => none) hb)
  · rw [← wf.length_content, hc]; rfl

example : ∃ h, Sha256.sha256.load (Sha256.sha256.save (forged (2 ^ 64 - 1))) = some h ∧
    (Sha256.sha256C 32).resume (h.core.state, h.core.blockLen) h.buf [] = none := by
  obtain ⟨h, hl, h1, h2⟩ := forged_load (2 ^ 64 - 1)
  refine ⟨h, hl, (C68_counted (.sha256 32 _ rfl) _ h hl []).trans (if_neg ?_)⟩
  rw [h1, h2]; decide

example : ∃ h, Sha256.sha256.load (Sha256.sha256.save (forged (2 ^ 55))) = some h ∧
    (Sha256.sha256C 32).resume (h.core.state, h.core.blockLen) h.buf [] = none := by
  obtain ⟨h, hl, h1, h2⟩ := forged_load (2 ^ 55)
  refine ⟨h, hl, (C68_counted (.sha256 32 _ rfl) _ h hl []).trans (if_neg ?_)⟩
  rw [h1, h2]; decide

example : ∃ h, Sha256.sha256.load (Sha256.sha256.save (forged (2 ^ 55 - 1))) = some h ∧
    (Sha256.sha256C 32).resume (h.core.state, h.core.blockLen) h.buf [List.replicate 63 7] ≠ none ∧
    (Sha256.sha256C 32).resume (h.core.state, h.core.blockLen) h.buf [List.replicate 63 7, [7]] = none := by
  obtain ⟨h, hl, h1, h2⟩ := forged_load (2 ^ 55 - 1)
  refine ⟨h, hl, ?_, (C68_counted (.sha256 32 _ rfl) _ h hl _).trans (if_neg ?_)⟩
  · rw [C68_counted (.sha256 32 _ rfl) _ h hl, if_pos (by rw [h1, h2]; decide)]
    exact nofun
  · rw [h1, h2]; decide

example : ∃ h, Sha256.sha256.load (Sha256.sha256.save (Sha256.sha256.updates Sha256.sha256.new [[97], [98, 99]])) = some h ∧
    (Sha256.sha256C 32).resume (h.core.state, h.core.blockLen) h.buf [[100]] = (Sha256.sha256C 32).run [[97], [98, 99], [100]] :=
  C68_counted_saved (.sha256 32 _ rfl) [[97], [98, 99]] [[100]] (by decide)

end Hashes
