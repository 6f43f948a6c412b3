import Verif.Props.Resume
import Verif.Proof.Serialize
/-
C69: `serialize` and `deserialize` in builds with overflow checks.  `WrapC.save` and `WrapC.load` are `SerializableState` of a whole hasher
with Rust's run-time checks; `none` is a panic, `some none` the error `DeserializeStateError`.
-/
namespace Hashes
open Rs

/-- The serializable hashers with their checked `serialize` and `deserialize`, and their states in the checked code. -/
inductive Saves : {σ τ ω : Type} → WrapC τ → Core σ ω → (σ → τ) → Prop
  | sha1 : Saves Sha1.saveC.plain Sha1.sha1 fun s => (s.h, s.blockLen)
  | sha256 (N : Nat) (c : Core Sha256.State Bytes) (h : Sha256.varCore.ct N = some c) : Saves (Sha256.saveC.ct N) c fun s => (s.state, s.blockLen)
  | sha512 (N : Nat) (c : Core Sha512.State Bytes) (h : Sha512.varCore.ct N = some c) : Saves (Sha512.saveC.ct N) c fun s => (s.state, s.blockLen)
  | sm3 : Saves Sm3.saveC.plain Sm3.sm3 fun s => (s.h.toList, s.blockLen)
  | md2 : Saves Md2.saveC.plain Md2.md2 id
  | md4 : Saves Md4.saveC.plain Md4.md4 fun s => (s.state, s.blockLen)
  | md5 : Saves Md5.saveC.plain Md5.md5 fun s => (s.state, s.blockLen)
  | ripemd128 : Saves (SaveC.plain (Ripemd.saveC Ripemd.C128.M 16 4)) Ripemd.ripemd128 fun s => (s.h, s.blockLen)
  | ripemd160 : Saves (SaveC.plain (Ripemd.saveC Ripemd.C160.M 20 5)) Ripemd.ripemd160 fun s => (s.h, s.blockLen)
  | ripemd256 : Saves (SaveC.plain (Ripemd.saveC Ripemd.C256.M 32 8)) Ripemd.ripemd256 fun s => (s.h, s.blockLen)
  | ripemd320 : Saves (SaveC.plain (Ripemd.saveC Ripemd.C320.M 40 10)) Ripemd.ripemd320 fun s => (s.h, s.blockLen)
  | tiger : Saves Tiger.saveC.plain Tiger.tiger fun s => (s.state.toList, s.blockLen)
  | tiger2 : Saves Tiger.saveC.plain Tiger.tiger2 fun s => (s.state.toList, s.blockLen)
  | whirlpool : Saves Whirlpool.saveC.plain Whirlpool.whirlpool fun s => (s.state.toList, s.bitLen.toList)
  | gost94 (sb : List (List Byte)) (h0 : Bytes) (h : h0.length = 32) : Saves Gost94.saveC.plain (Gost94.gost94 sb h0) Gost94.State.toC
  | groestlShort (N : Nat) (c : Core (Groestl.State Groestl.short.cols) Bytes) (h : Groestl.core Groestl.short N = some c) :
      Saves (SaveC.ct (Groestl.saveC 72 64 8) N) c fun s => (s.state.toList, s.blocksLen)
  | groestlLong (N : Nat) (c : Core (Groestl.State Groestl.long.cols) Bytes) (h : Groestl.core Groestl.long N = some c) :
      Saves (SaveC.ct (Groestl.saveC 136 128 16) N) c fun s => (s.state.toList, s.blocksLen)
  | kupynaShort (N : Nat) (c : Core (Kupyna.State Kupyna.short.cols) Bytes) (h : Kupyna.core Kupyna.short N = some c) :
      Saves (SaveC.ct (Kupyna.saveC 72 64 8) N) c fun s => (s.state.toList, s.blocksLen)
  | kupynaLong (N : Nat) (c : Core (Kupyna.State Kupyna.long.cols) Bytes) (h : Kupyna.core Kupyna.long N = some c) :
      Saves (SaveC.ct (Kupyna.saveC 136 128 16) N) c fun s => (s.state.toList, s.blocksLen)
  | streebog (N : Nat) (c : Core Streebog.State Bytes) (h : Streebog.core N = some c) :
      Saves (Streebog.saveC.ct N) c fun s => (s.h.toList, s.n.toList, s.sigma.toList)
  | shabal (N : Nat) (c : Core Shabal.State Bytes) (h : Shabal.core N = some c) : Saves (Shabal.saveC.ct N) c Shabal.State.toC
  | keccak224 : Saves Sha3.saveC.plain Sha3.keccak224 id
  | keccak256 : Saves Sha3.saveC.plain Sha3.keccak256 id
  | keccak384 : Saves Sha3.saveC.plain Sha3.keccak384 id
  | keccak512 : Saves Sha3.saveC.plain Sha3.keccak512 id
  | keccak256Full : Saves Sha3.saveC.plain Sha3.keccak256Full id
  | sha3_224 : Saves Sha3.saveC.plain Sha3.sha3_224 id
  | sha3_256 : Saves Sha3.saveC.plain Sha3.sha3_256 id
  | sha3_384 : Saves Sha3.saveC.plain Sha3.sha3_384 id
  | sha3_512 : Saves Sha3.saveC.plain Sha3.sha3_512 id
  | fsb (P : Fsb.Params) (n : Nat) (hP : (P, n) ∈ [(Fsb.fsb160, 80), (Fsb.fsb224, 112), (Fsb.fsb256, 128), (Fsb.fsb384, 184), (Fsb.fsb512, 248)])
      (PI : Bytes) (h : PI.length = 272384) : Saves (Fsb.saveC P n).plain (Fsb.core P PI) fun s => (s.state.getD [], s.blocksLen)

theorem Saves.laws {σ τ ω : Type} {S : WrapC τ} {c : Core σ ω} {rep : σ → τ} (H : Saves S c rep) :
    ∃ inv, c.Lawful inv ∧ c.SerLawful inv ∧ S.Faithful c rep inv := by
  cases H with
  | sha1 => exact ⟨_, Sha1.lawful, Sha1.serLawful, Sha1.saves.plain⟩
  | sha256 N _ h => obtain ⟨-, s0, -, rfl⟩ := VarCore.ct_inv h; exact ⟨_, Sha256.lawful.ct _ _, Sha256.serLawful.ct _ _, Sha256.saves.ct Sha256.serLawful _ _⟩
  | sha512 N _ h => obtain ⟨-, s0, -, rfl⟩ := VarCore.ct_inv h; exact ⟨_, Sha512.lawful.ct _ _, Sha512.serLawful.ct _ _, Sha512.saves.ct Sha512.serLawful _ _⟩
  | sm3 => exact ⟨_, Sm3.lawful, Sm3.serLawful, Sm3.saves.plain⟩
  | md2 => exact ⟨_, Md2.lawful, Md2.serLawful, Md2.saves.plain⟩
  | md4 => exact ⟨_, Md4.lawful, Md4.serLawful, Md4.saves.plain⟩
  | md5 => exact ⟨_, Md5.lawful, Md5.serLawful, Md5.saves.plain⟩
  | ripemd128 => exact ⟨_, Ripemd.lawful, Ripemd.serLawful Ripemd.laws128, Ripemd.saves128.plain⟩
  | ripemd160 => exact ⟨_, Ripemd.lawful, Ripemd.serLawful Ripemd.laws160, Ripemd.saves160.plain⟩
  | ripemd256 => exact ⟨_, Ripemd.lawful, Ripemd.serLawful Ripemd.laws256, Ripemd.saves256.plain⟩
  | ripemd320 => exact ⟨_, Ripemd.lawful, Ripemd.serLawful Ripemd.laws320, Ripemd.saves320.plain⟩
  | tiger => exact ⟨_, Tiger.lawful _ _, Tiger.serLawful _ _, Tiger.saves.plain⟩
  | tiger2 => exact ⟨_, Tiger.lawful _ _, Tiger.serLawful _ _, Tiger.saves.plain⟩
  | whirlpool => exact ⟨_, Whirlpool.lawful, Whirlpool.serLawful, Whirlpool.saves.plain⟩
  | gost94 sb h0 h => exact ⟨_, Gost94.lawful h, Gost94.serLawful, Gost94.saves.plain⟩
  | groestlShort N _ h =>
    obtain ⟨-, s0, -, rfl⟩ := VarCore.ct_inv h
    exact ⟨_, (Groestl.lawful (by decide)).ct _ _, (Groestl.serLawful (by decide)).ct _ _, SaveC.Faithful.ct (Groestl.saves 8) (Groestl.serLawful (by decide)) _ _⟩
  | groestlLong N _ h =>
    obtain ⟨-, s0, -, rfl⟩ := VarCore.ct_inv h
    exact ⟨_, (Groestl.lawful (by decide)).ct _ _, (Groestl.serLawful (by decide)).ct _ _, SaveC.Faithful.ct (Groestl.saves 16) (Groestl.serLawful (by decide)) _ _⟩
  | kupynaShort N _ h =>
    obtain ⟨-, s0, -, rfl⟩ := VarCore.ct_inv h
    exact ⟨_, (Kupyna.lawful (by decide)).ct _ _, (Kupyna.serLawful (by decide)).ct _ _, SaveC.Faithful.ct (Kupyna.saves 8) (Kupyna.serLawful (by decide)) _ _⟩
  | kupynaLong N _ h =>
    obtain ⟨-, s0, -, rfl⟩ := VarCore.ct_inv h
    exact ⟨_, (Kupyna.lawful (by decide)).ct _ _, (Kupyna.serLawful (by decide)).ct _ _, SaveC.Faithful.ct (Kupyna.saves 16) (Kupyna.serLawful (by decide)) _ _⟩
  | streebog N _ h => obtain ⟨-, s0, -, rfl⟩ := VarCore.ct_inv h; exact ⟨_, Streebog.lawful.ct _ _, Streebog.serLawful.ct _ _, Streebog.saves.ct Streebog.serLawful _ _⟩
  | shabal N _ h => obtain ⟨-, s0, -, rfl⟩ := VarCore.ct_inv h; exact ⟨_, Shabal.lawful.ct _ _, Shabal.serLawful.ct _ _, Shabal.saves.ct Shabal.serLawful _ _⟩
  | fsb P n hP PI h =>
    have hs : ∀ p ∈ [(Fsb.fsb160, 80), (Fsb.fsb224, 112), (Fsb.fsb256, 128), (Fsb.fsb384, 184), (Fsb.fsb512, 248)], p.1 ∈ Fsb.all ∧
      p.2 = p.1.r / 8 ∧ p.1.n / p.1.r * (p.1.p / 8 + 1) ≤ 272384 := by decide
    obtain ⟨h1, h2, h3⟩ := hs _ hP
    exact ⟨_, Fsb.lawful (Fsb.good h1) (by rw [h]; exact h3), Fsb.serLawful (Fsb.good h1), (Fsb.saves h2).plain⟩
  | keccak224 => exact ⟨_, Sha3.fixed_lawful Sha3.perm24 (by decide) _ _, Sha3.fixed_serLawful (by decide) _ _, Sha3.saves.plain⟩
  | keccak256 => exact ⟨_, Sha3.fixed_lawful Sha3.perm24 (by decide) _ _, Sha3.fixed_serLawful (by decide) _ _, Sha3.saves.plain⟩
  | keccak384 => exact ⟨_, Sha3.fixed_lawful Sha3.perm24 (by decide) _ _, Sha3.fixed_serLawful (by decide) _ _, Sha3.saves.plain⟩
  | keccak512 => exact ⟨_, Sha3.fixed_lawful Sha3.perm24 (by decide) _ _, Sha3.fixed_serLawful (by decide) _ _, Sha3.saves.plain⟩
  | keccak256Full => exact ⟨_, Sha3.fixed_lawful Sha3.perm24 (by decide) _ _, Sha3.fixed_serLawful (by decide) _ _, Sha3.saves.plain⟩
  | sha3_224 => exact ⟨_, Sha3.fixed_lawful Sha3.perm24 (by decide) _ _, Sha3.fixed_serLawful (by decide) _ _, Sha3.saves.plain⟩
  | sha3_256 => exact ⟨_, Sha3.fixed_lawful Sha3.perm24 (by decide) _ _, Sha3.fixed_serLawful (by decide) _ _, Sha3.saves.plain⟩
  | sha3_384 => exact ⟨_, Sha3.fixed_lawful Sha3.perm24 (by decide) _ _, Sha3.fixed_serLawful (by decide) _ _, Sha3.saves.plain⟩
  | sha3_512 => exact ⟨_, Sha3.fixed_lawful Sha3.perm24 (by decide) _ _, Sha3.fixed_serLawful (by decide) _ _, Sha3.saves.plain⟩

/-- The hashers a program can hold: new ones, and what `update`, `reset` and `deserialize` make. -/
inductive Reached {σ ω : Type} (c : Core σ ω) : Hasher σ → Prop
  | new : Reached c c.new
  | update (h : Hasher σ) (x : Bytes) : Reached c h → Reached c (c.update h x)
  | reset (h : Hasher σ) : Reached c h → Reached c (c.resetH h)
  | load (raw : Bytes) (h : Hasher σ) : c.load raw = some h → Reached c h

theorem load_length {σ ω : Type} {c : Core σ ω} {raw : Bytes} {h : Hasher σ} (hl : c.load raw = some h) : raw.length = c.serLen + (c.bs + 1) := by
  simp only [Core.load] at hl
  split at hl
  · rename_i s b hs hb
    unfold BlockBuffer.deserialize at hb
    split at hb
    · cases hb
    · next h => rw [Decidable.not_not, List.length_drop] at h; omega
  · cases hl

theorem Reached.inv {σ τ ω : Type} {S : WrapC τ} {c : Core σ ω} {rep : σ → τ} {inv : σ → Prop} (L : c.Lawful inv) (F : S.Faithful c rep inv)
    {h : Hasher σ} (r : Reached c h) :
    inv h.core ∧ h.buf.WF c.kind c.bs := by
  induction r with
  | new => exact ⟨L.inv_init, (Core.Rep.new L).1⟩
  | update h x _ ih =>
    have := updates_rel_from L (d := c) (fun s t => s = t ∧ inv s) rfl rfl [x] h h
      (fun _ _ s t blks hb _ hr => ⟨congrArg (c.updateBlocks · blks) hr.1, L.inv_update s blks hb hr.2⟩) ih.2 rfl ⟨rfl, ih.1⟩
    exact ⟨this.2.1.2, this.2.2⟩
  | reset h _ ih => exact ⟨by show inv (c.reset h.core); rw [L.reset_eq _ ih.1]; exact L.inv_init, ih.2.reset L.bs_pos⟩
  | load raw h hl => exact ⟨(F.des _ (by rw [List.length_take, load_length hl]; omega)).2 _ (load_parts hl).1, (load_parts hl).2⟩

/-- C69. Restoring a hasher from any bytes of the right length hits no run-time check: it is an error or the hasher that the model
gives. -/
theorem C69_load {σ τ ω : Type} {S : WrapC τ} {c : Core σ ω} {rep : σ → τ} (H : Saves S c rep) (raw : Bytes)
    (hr : raw.length = c.serLen + (c.bs + 1)) : S.load c.kind c.bs raw = some ((c.load raw).map fun h => (rep h.core, h.buf)) := by
  obtain ⟨inv, L, Se, F⟩ := H.laws
  obtain ⟨hd, -⟩ := F.des (raw.take c.serLen) (by rw [List.length_take]; omega)
  refine bind_ok (split_eq (by rw [F.size]; omega)) ?_
  rw [F.size]
  refine bind_ok hd ?_
  unfold Core.load
  cases c.deserialize (raw.take c.serLen) <;> cases BlockBuffer.deserialize c.kind c.bs (raw.drop c.serLen) <;> rfl

/-- C69. Saving hits no run-time check either, whatever the hasher has been through, including states from forged bytes. -/
theorem C69_save {σ τ ω : Type} {S : WrapC τ} {c : Core σ ω} {rep : σ → τ} (H : Saves S c rep) (h : Hasher σ) (r : Reached c h) :
    S.save c.bs (rep h.core) h.buf = some (c.save h) := by
  obtain ⟨inv, L, Se, F⟩ := H.laws
  have hi := (r.inv L F).1
  exact bind_ok (F.ser _ hi) (bind_ok (exactly_eq ((Se.len _ hi).trans F.size.symm)) rfl)

/-- C69 with C68, the way from bytes to the digest: restore, one `update` per element of `l`, `finalize`, all with run-time checks. The
error occurs exactly when the model rejects the bytes, the panic exactly under the condition of C68. -/
theorem C69_run {w : Nat} {σ τ : Type} {S : WrapC τ} {cc : CoreC τ Bytes} {c : Core σ Bytes} {rep : σ → τ} {ctr : σ → BitVec w} {limit : Nat}
    (H : Saves S c rep) (K : CountsBlocks cc c rep ctr limit) (raw : Bytes) (hr : raw.length = c.serLen + (c.bs + 1)) (l : List Bytes) :
    (do match ← S.load c.kind c.bs raw with
        | none => pure none
        | some (s, buf) => pure (some (← cc.resume s buf l))) =
      match c.load raw with
      | none => some none
      | some h => if c.bs * (ctr h.core).toNat + h.buf.pos + l.flatten.length < limit then some (some (c.finish (c.updates h l))) else none := by
  rw [C69_load H raw hr]
  cases hl : c.load raw with
  | none => rfl
  | some h =>
    show (cc.resume (rep h.core) h.buf l).bind _ = _
    rw [C68_counted K raw h hl l]
    simp only
    split <;> rfl

/-- C69. Every serializable hasher of the library is covered. -/
theorem C69_coverage {σ ω : Type} {c : Core σ ω} (hc : Serializable c) : ∃ (τ : Type) (S : WrapC τ) (rep : σ → τ), Saves S c rep := by
  cases hc with
  | sha1 => exact ⟨_, _, _, .sha1⟩
  | sha224 => exact ⟨_, _, _, .sha256 28 _ rfl⟩
  | sha256 => exact ⟨_, _, _, .sha256 32 _ rfl⟩
  | sha512_224 => exact ⟨_, _, _, .sha512 28 _ rfl⟩
  | sha512_256 => exact ⟨_, _, _, .sha512 32 _ rfl⟩
  | sha384 => exact ⟨_, _, _, .sha512 48 _ rfl⟩
  | sha512 => exact ⟨_, _, _, .sha512 64 _ rfl⟩
  | md2 => exact ⟨_, _, _, .md2⟩
  | md4 => exact ⟨_, _, _, .md4⟩
  | md5 => exact ⟨_, _, _, .md5⟩
  | sm3 => exact ⟨_, _, _, .sm3⟩
  | whirlpool => exact ⟨_, _, _, .whirlpool⟩
  | ripemd128 => exact ⟨_, _, _, .ripemd128⟩
  | ripemd160 => exact ⟨_, _, _, .ripemd160⟩
  | ripemd256 => exact ⟨_, _, _, .ripemd256⟩
  | ripemd320 => exact ⟨_, _, _, .ripemd320⟩
  | keccak224 => exact ⟨_, _, _, .keccak224⟩
  | keccak256 => exact ⟨_, _, _, .keccak256⟩
  | keccak384 => exact ⟨_, _, _, .keccak384⟩
  | keccak512 => exact ⟨_, _, _, .keccak512⟩
  | keccak256Full => exact ⟨_, _, _, .keccak256Full⟩
  | sha3_224 => exact ⟨_, _, _, .sha3_224⟩
  | sha3_256 => exact ⟨_, _, _, .sha3_256⟩
  | sha3_384 => exact ⟨_, _, _, .sha3_384⟩
  | sha3_512 => exact ⟨_, _, _, .sha3_512⟩
  | tiger => exact ⟨_, _, _, .tiger⟩
  | tiger2 => exact ⟨_, _, _, .tiger2⟩
  | gost94 sb h0 hh => exact ⟨_, _, _, .gost94 sb h0 hh⟩
  | groestlShort N _ h => exact ⟨_, _, _, .groestlShort N _ h⟩
  | groestlLong N _ h => exact ⟨_, _, _, .groestlLong N _ h⟩
  | kupynaShort N _ h => exact ⟨_, _, _, .kupynaShort N _ h⟩
  | kupynaLong N _ h => exact ⟨_, _, _, .kupynaLong N _ h⟩
  | streebog N _ h => exact ⟨_, _, _, .streebog N _ h⟩
  | shabal N _ h => exact ⟨_, _, _, .shabal N _ h⟩
  | fsb P hP PI h =>
    have : ∀ P ∈ Fsb.all, (P, P.r / 8) ∈ [(Fsb.fsb160, 80), (Fsb.fsb224, 112), (Fsb.fsb256, 128), (Fsb.fsb384, 184), (Fsb.fsb512, 248)] := by decide
    exact ⟨_, _, _, .fsb P _ (this P hP) PI h⟩

/-! A SHA-1 state can be saved; bytes that are too short would be a panic (the type system excludes them); a SHA-224 state given
to SHA-256 is an error, not a panic. -/

example (h : Hasher Sha1.State) (e : h = Sha1.sha1.update Sha1.sha1.new [97, 98, 99]) :
    Sha1.saveC.plain.save Sha1.sha1.bs (h.core.h, h.core.blockLen) h.buf = some (Sha1.sha1.save h) :=
  C69_save .sha1 h (e ▸ .update _ _ .new)

example : (Sha256.saveC.ct 32).load .eager 64 (List.replicate 39 0) = none := rfl

example : (Sha256.saveC.ct 32).load .eager 64 (Sha256.sha224.save Sha256.sha224.new) = some none := by decide +kernel

example : (Sha256.saveC.ct 32).load .eager 64 (Sha256.sha256.save Sha256.sha256.new) =
    some (some ((Sha256.H256_256, 0), ⟨List.replicate 64 0, 0⟩)) := by decide +kernel

end Hashes
