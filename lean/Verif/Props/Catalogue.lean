import Verif.Props.Streaming
import Verif.Proof.Sha1
import Verif.Proof.Sha512
import Verif.Proof.Md2
import Verif.Proof.Md4
import Verif.Proof.Md5
import Verif.Proof.Ripemd
import Verif.Proof.Sm3
import Verif.Proof.CShake
import Verif.Proof.K12
import Verif.Proof.Blake2
import Verif.Proof.Tiger
import Verif.Proof.Whirlpool
import Verif.Proof.Groestl
import Verif.Proof.Kupyna
import Verif.Proof.Streebog
import Verif.Proof.Gost94
import Verif.Proof.Jh
import Verif.Proof.Shabal
import Verif.Proof.Belt
import Verif.Proof.Ascon
import Verif.Proof.Skein
import Verif.Proof.Fsb
import Verif.Proof.Sha1Checked
/- C01–C05 for every hasher type of the library. -/
namespace Hashes

/-- The hashers with `SerializableState` (the implementations are exactly those found by
`grep "SerializableState for" /repo`), each as built by its public constructor. -/
inductive Serializable : {σ ω : Type} → Core σ ω → Prop
  /-- sha2 -/
  | sha224 : Serializable Sha256.sha224
  | sha256 : Serializable Sha256.sha256
  | sha512_224 : Serializable Sha512.sha512_224
  | sha512_256 : Serializable Sha512.sha512_256
  | sha384 : Serializable Sha512.sha384
  | sha512 : Serializable Sha512.sha512
  /-- sha1, md2, md4, md5, sm3, whirlpool -/
  | sha1 : Serializable Sha1.sha1
  | md2 : Serializable Md2.md2
  | md4 : Serializable Md4.md4
  | md5 : Serializable Md5.md5
  | sm3 : Serializable Sm3.sm3
  | whirlpool : Serializable Whirlpool.whirlpool
  /-- ripemd -/
  | ripemd128 : Serializable Ripemd.ripemd128
  | ripemd160 : Serializable Ripemd.ripemd160
  | ripemd256 : Serializable Ripemd.ripemd256
  | ripemd320 : Serializable Ripemd.ripemd320
  /-- sha3 fixed-output types -/
  | keccak224 : Serializable Sha3.keccak224
  | keccak256 : Serializable Sha3.keccak256
  | keccak384 : Serializable Sha3.keccak384
  | keccak512 : Serializable Sha3.keccak512
  | keccak256Full : Serializable Sha3.keccak256Full
  | sha3_224 : Serializable Sha3.sha3_224
  | sha3_256 : Serializable Sha3.sha3_256
  | sha3_384 : Serializable Sha3.sha3_384
  | sha3_512 : Serializable Sha3.sha3_512
  /-- tiger -/
  | tiger : Serializable Tiger.tiger
  | tiger2 : Serializable Tiger.tiger2
  /-- gost94, every parameter set (including user-defined ones: `Gost94Params` is public) -/
  | gost94 (sb : List (List Byte)) (h0 : Bytes) (h : h0.length = 32) : Serializable (Gost94.gost94 sb h0)
  /-- groestl, kupyna, streebog, shabal: every output size accepted by the constructor -/
  | groestlShort (N : Nat) (c : Core (Groestl.State Groestl.short.cols) Bytes) (h : Groestl.core Groestl.short N = some c) : Serializable c
  | groestlLong (N : Nat) (c : Core (Groestl.State Groestl.long.cols) Bytes) (h : Groestl.core Groestl.long N = some c) : Serializable c
  | kupynaShort (N : Nat) (c : Core (Kupyna.State Kupyna.short.cols) Bytes) (h : Kupyna.core Kupyna.short N = some c) : Serializable c
  | kupynaLong (N : Nat) (c : Core (Kupyna.State Kupyna.long.cols) Bytes) (h : Kupyna.core Kupyna.long N = some c) : Serializable c
  | streebog (N : Nat) (c : Core Streebog.State Bytes) (h : Streebog.core N = some c) : Serializable c
  | shabal (N : Nat) (c : Core Shabal.State Bytes) (h : Shabal.core N = some c) : Serializable c
  /-- fsb, every table of the size of pi.bin -/
  | fsb (P : Fsb.Params) (hP : P ∈ Fsb.all) (PI : Bytes) (h : PI.length = 272384) : Serializable (Fsb.core P PI)

/-- Every hasher of the library. -/
inductive Library : {σ ω : Type} → Core σ ω → Prop
  | ser {σ ω : Type} {c : Core σ ω} (h : Serializable c) : Library c
  /-- sha3 extendable-output types -/
  | shake128 : Library Sha3.shake128
  | shake256 : Library Sha3.shake256
  | turboShake128 (d : Byte) (c : Core Sha3.Turbo Sha3.Lanes) (h : Sha3.turboShake128 d = some c) : Library c
  | turboShake256 (d : Byte) (c : Core Sha3.Turbo Sha3.Lanes) (h : Sha3.turboShake256 d = some c) : Library c
  | cshake128 (name cust : Bytes) : Library (Sha3.cshake128 name cust)
  | cshake256 (name cust : Bytes) : Library (Sha3.cshake256 name cust)
  /-- k12 -/
  | k12 (cust : Bytes) : Library (K12.core cust)
  /-- blake2, every accepted output size -/
  | blake2b (N : Nat) (c : Core (Blake2.State 64) Bytes) (h : Blake2.core Blake2.cfgB N = some c) : Library c
  | blake2s (N : Nat) (c : Core (Blake2.State 32) Bytes) (h : Blake2.core Blake2.cfgS N = some c) : Library c
  /-- jh -/
  | jh (N : Nat) (c : Core Jh.State Bytes) (h : Jh.core N = some c) : Library c
  /-- belt-hash, every block cipher -/
  | belt (E : Belt.Cipher) : Library (Belt.belt E)
  /-- ascon-hash, every permutation -/
  | asconHash (P : Ascon.State → Ascon.State) : Library (Ascon.hash256 P)
  | asconXof (P : Ascon.State → Ascon.State) : Library (Ascon.xof128 P)
  /-- skein: state sizes 4, 8, 16 words, every tweakable cipher, every output size -/
  | skein (n : Nat) (hn : n = 4 ∨ n = 8 ∨ n = 16) (E : Skein.Cipher n) (N : Nat) : Library (Skein.core E N)
  /-- sha1-checked, every configuration -/
  | sha1Checked (x : Sha1Checked.Builder) : Library (Sha1Checked.sha1Checked x)

theorem Serializable.laws {σ ω : Type} {c : Core σ ω} (h : Serializable c) :
    ∃ inv : σ → Prop, c.Lawful inv ∧ c.SerLawful inv ∧ c.DeserLawful := by
  cases h with
  | sha224 => exact ⟨_, Sha256.lawful.ct _ _, Sha256.serLawful.ct _ _, Sha256.serLawful.deser _ _⟩
  | sha256 => exact ⟨_, Sha256.lawful.ct _ _, Sha256.serLawful.ct _ _, Sha256.serLawful.deser _ _⟩
  | sha512_224 => exact ⟨_, Sha512.lawful.ct _ _, Sha512.serLawful.ct _ _, Sha512.serLawful.deser _ _⟩
  | sha512_256 => exact ⟨_, Sha512.lawful.ct _ _, Sha512.serLawful.ct _ _, Sha512.serLawful.deser _ _⟩
  | sha384 => exact ⟨_, Sha512.lawful.ct _ _, Sha512.serLawful.ct _ _, Sha512.serLawful.deser _ _⟩
  | sha512 => exact ⟨_, Sha512.lawful.ct _ _, Sha512.serLawful.ct _ _, Sha512.serLawful.deser _ _⟩
  | sha1 => exact ⟨_, Sha1.lawful, Sha1.serLawful, Sha1.deserLawful⟩
  | md2 => exact ⟨_, Md2.lawful, Md2.serLawful, Md2.deserLawful⟩
  | md4 => exact ⟨_, Md4.lawful, Md4.serLawful, Md4.deserLawful⟩
  | md5 => exact ⟨_, Md5.lawful, Md5.serLawful, Md5.deserLawful⟩
  | sm3 => exact ⟨_, Sm3.lawful, Sm3.serLawful, Sm3.deserLawful⟩
  | whirlpool => exact ⟨_, Whirlpool.lawful, Whirlpool.serLawful, Whirlpool.deserLawful⟩
  | ripemd128 => exact ⟨_, Ripemd.lawful, Ripemd.serLawful Ripemd.laws128, Ripemd.deserLawful Ripemd.laws128⟩
  | ripemd160 => exact ⟨_, Ripemd.lawful, Ripemd.serLawful Ripemd.laws160, Ripemd.deserLawful Ripemd.laws160⟩
  | ripemd256 => exact ⟨_, Ripemd.lawful, Ripemd.serLawful Ripemd.laws256, Ripemd.deserLawful Ripemd.laws256⟩
  | ripemd320 => exact ⟨_, Ripemd.lawful, Ripemd.serLawful Ripemd.laws320, Ripemd.deserLawful Ripemd.laws320⟩
  | keccak224 => exact ⟨_, Sha3.fixed_lawful Sha3.perm24 (by decide) _ _, Sha3.fixed_serLawful (by decide) _ _, Sha3.fixed_deserLawful _ _ _⟩
  | keccak256 => exact ⟨_, Sha3.fixed_lawful Sha3.perm24 (by decide) _ _, Sha3.fixed_serLawful (by decide) _ _, Sha3.fixed_deserLawful _ _ _⟩
  | keccak384 => exact ⟨_, Sha3.fixed_lawful Sha3.perm24 (by decide) _ _, Sha3.fixed_serLawful (by decide) _ _, Sha3.fixed_deserLawful _ _ _⟩
  | keccak512 => exact ⟨_, Sha3.fixed_lawful Sha3.perm24 (by decide) _ _, Sha3.fixed_serLawful (by decide) _ _, Sha3.fixed_deserLawful _ _ _⟩
  | keccak256Full => exact ⟨_, Sha3.fixed_lawful Sha3.perm24 (by decide) _ _, Sha3.fixed_serLawful (by decide) _ _, Sha3.fixed_deserLawful _ _ _⟩
  | sha3_224 => exact ⟨_, Sha3.fixed_lawful Sha3.perm24 (by decide) _ _, Sha3.fixed_serLawful (by decide) _ _, Sha3.fixed_deserLawful _ _ _⟩
  | sha3_256 => exact ⟨_, Sha3.fixed_lawful Sha3.perm24 (by decide) _ _, Sha3.fixed_serLawful (by decide) _ _, Sha3.fixed_deserLawful _ _ _⟩
  | sha3_384 => exact ⟨_, Sha3.fixed_lawful Sha3.perm24 (by decide) _ _, Sha3.fixed_serLawful (by decide) _ _, Sha3.fixed_deserLawful _ _ _⟩
  | sha3_512 => exact ⟨_, Sha3.fixed_lawful Sha3.perm24 (by decide) _ _, Sha3.fixed_serLawful (by decide) _ _, Sha3.fixed_deserLawful _ _ _⟩
  | tiger => exact ⟨_, Tiger.lawful _ _, Tiger.serLawful _ _, Tiger.deserLawful _ _⟩
  | tiger2 => exact ⟨_, Tiger.lawful _ _, Tiger.serLawful _ _, Tiger.deserLawful _ _⟩
  | gost94 sb h0 hh => exact ⟨_, Gost94.lawful hh, Gost94.serLawful, Gost94.deserLawful⟩
  | groestlShort N _ h =>
    obtain ⟨_, s0, -, rfl⟩ := VarCore.ct_inv h
    exact ⟨_, (Groestl.lawful (by decide)).ct _ _, (Groestl.serLawful (by decide)).ct _ _, (Groestl.serLawful (by decide)).deser _ _⟩
  | groestlLong N _ h =>
    obtain ⟨_, s0, -, rfl⟩ := VarCore.ct_inv h
    exact ⟨_, (Groestl.lawful (by decide)).ct _ _, (Groestl.serLawful (by decide)).ct _ _, (Groestl.serLawful (by decide)).deser _ _⟩
  | kupynaShort N _ h =>
    obtain ⟨_, s0, -, rfl⟩ := VarCore.ct_inv h
    exact ⟨_, (Kupyna.lawful (by decide)).ct _ _, (Kupyna.serLawful (by decide)).ct _ _, (Kupyna.serLawful (by decide)).deser _ _⟩
  | kupynaLong N _ h =>
    obtain ⟨_, s0, -, rfl⟩ := VarCore.ct_inv h
    exact ⟨_, (Kupyna.lawful (by decide)).ct _ _, (Kupyna.serLawful (by decide)).ct _ _, (Kupyna.serLawful (by decide)).deser _ _⟩
  | streebog N _ h =>
    obtain ⟨_, s0, -, rfl⟩ := VarCore.ct_inv h
    exact ⟨_, Streebog.lawful.ct _ _, Streebog.serLawful.ct _ _, Streebog.serLawful.deser _ _⟩
  | shabal N _ h =>
    obtain ⟨_, s0, -, rfl⟩ := VarCore.ct_inv h
    exact ⟨_, Shabal.lawful.ct _ _, Shabal.serLawful.ct _ _, Shabal.serLawful.deser _ _⟩
  | fsb P hP PI h =>
    have hs : ∀ P ∈ Fsb.all, P.n / P.r * (P.p / 8 + 1) ≤ 272384 := by decide
    exact ⟨_, Fsb.lawful (Fsb.good hP) (by rw [h]; exact hs P hP), Fsb.serLawful (Fsb.good hP), Fsb.deserLawful⟩

theorem Library.laws {σ ω : Type} {c : Core σ ω} (h : Library c) : ∃ inv : σ → Prop, c.Lawful inv := by
  cases h with
  | ser h => obtain ⟨inv, L, -⟩ := h.laws; exact ⟨inv, L⟩
  | shake128 => exact ⟨_, Sha3.shake_lawful Sha3.perm24 (by decide) _⟩
  | shake256 => exact ⟨_, Sha3.shake_lawful Sha3.perm24 (by decide) _⟩
  | turboShake128 d _ h =>
    unfold Sha3.turboShake128 at h
    obtain ⟨i, hi, rfl⟩ := Option.map_eq_some_iff.1 h
    exact ⟨_, Sha3.turbo_lawful Sha3.perm12 (by decide) hi⟩
  | turboShake256 d _ h =>
    unfold Sha3.turboShake256 at h
    obtain ⟨i, hi, rfl⟩ := Option.map_eq_some_iff.1 h
    exact ⟨_, Sha3.turbo_lawful Sha3.perm12 (by decide) hi⟩
  | cshake128 n s => exact ⟨_, Sha3.cshake_lawful Sha3.perm24 (by decide) n s⟩
  | cshake256 n s => exact ⟨_, Sha3.cshake_lawful Sha3.perm24 (by decide) n s⟩
  | k12 cust => exact ⟨_, K12.lawful cust⟩
  | blake2b N _ h =>
    obtain ⟨_, s0, -, rfl⟩ := VarCore.ct_inv h
    exact ⟨_, Blake2.goodB.lawful.ct _ _⟩
  | blake2s N _ h =>
    obtain ⟨_, s0, -, rfl⟩ := VarCore.ct_inv h
    exact ⟨_, Blake2.goodS.lawful.ct _ _⟩
  | jh N _ h =>
    obtain ⟨_, s0, -, rfl⟩ := VarCore.ct_inv h
    exact ⟨_, Jh.lawful.ct _ _⟩
  | belt E => exact ⟨_, Belt.lawful E⟩
  | asconHash P => exact ⟨_, Ascon.hash_lawful P⟩
  | asconXof P => exact ⟨_, Ascon.xof_lawful P⟩
  | skein n hn E N => exact ⟨_, Skein.lawful N (by omega)⟩
  | sha1Checked x => exact ⟨_, Sha1Checked.lawful x⟩

/-- C01. For every hasher of the library: from any well-formed state, feeding chunks one by one or their concatenation is
indistinguishable by any continuation, and a fresh hasher fed any chunking gives the one-shot digest. (Holds for the lazy
ones too; `C02_library` says more about those.) -/
theorem C01_library {σ ω : Type} {c : Core σ ω} (hc : Library c) (l : List Bytes) :
    c.finish (c.updates c.new l) = c.finish (c.update c.new l.flatten) ∧
    ∀ (h : Hasher σ), h.buf.WF c.kind c.bs → ∀ tail : List Bytes,
      c.finish (c.updates (c.updates h l) tail) = c.finish (c.updates (c.update h l.flatten) tail) ∧
      c.save (c.updates (c.updates h l) tail) = c.save (c.updates (c.update h l.flatten) tail) := by
  obtain ⟨inv, L⟩ := hc.laws
  exact ⟨C01_digest_of_chunks c L l, fun h wf tail => C01_eager_chunking c L h wf l tail⟩

/-- C02. The lazy hashers of the library (BLAKE2, Skein and whatever else is declared `Lazy`) keep back the last block. -/
theorem C02_library {σ ω : Type} {c : Core σ ω} (hc : Library c) (hk : c.kind = .lazy) (l : List Bytes) :
    c.finish (c.updates c.new l) = c.finish (c.update c.new l.flatten) ∧
    ∃ blks : List Bytes, ∃ rest : Bytes,
      (∀ b ∈ blks, b.length = c.bs) ∧ l.flatten = blks.flatten ++ rest ∧
      (c.updates c.new l).core = c.updateBlocks c.init blks ∧
      (c.updates c.new l).buf.content = rest ∧
      rest.length ≤ c.bs ∧ (l.flatten ≠ [] → rest ≠ []) := by
  obtain ⟨inv, L⟩ := hc.laws
  exact ⟨C01_digest_of_chunks c L l, (C02_lazy_chunking c L hk c.new (Core.Rep.new L).1 l []).2.2⟩

/-- Which hashers are lazy. -/
theorem C02_which :
    (∀ N c, Blake2.core Blake2.cfgB N = some c → c.kind = .lazy ∧ c.bs = 128) ∧
    (∀ N c, Blake2.core Blake2.cfgS N = some c → c.kind = .lazy ∧ c.bs = 64) ∧
    (∀ n (E : Skein.Cipher n) N, (Skein.core E N).kind = .lazy ∧ (Skein.core E N).bs = 8 * n) := by
  refine ⟨fun N c h => ?_, fun N c h => ?_, fun n E N => ⟨rfl, rfl⟩⟩ <;>
  · obtain ⟨_, s0, -, rfl⟩ := VarCore.ct_inv h
    exact ⟨rfl, rfl⟩

/-- C03. For every hasher of the library, any history of creations, updates, clones, resets, finalize_resets and finalizes over
any number of variables — and for the serializable ones also saves and loads — emits exactly the one-shot digests of the
logged messages. -/
theorem C03_library {σ ω : Type} {c : Core σ ω} (hc : Library c) (ops : List Op)
    (hops : Serializable c ∨ ∀ op ∈ ops, op.usesSave = false) :
    runHistory c ops = (Spec.messagesOf ops).map fun m => c.finish (c.update c.new m) := by
  rcases hops with hs | hops
  · obtain ⟨inv, L, S, -⟩ := hs.laws
    exact C03_history c L S ops
  · obtain ⟨inv, L⟩ := hc.laws
    exact C03_history_noser c L ops hops

/-- C04. Serialization round-trips for every serializable hasher of the library. -/
theorem C04_library {σ ω : Type} {c : Core σ ω} (hc : Serializable c) (l : List Bytes) :
    ∃ h', c.load (c.save (c.updates c.new l)) = some h' ∧
      ∀ tail : List Bytes, c.finish (c.updates h' tail) = c.finish (c.update c.new (l.flatten ++ tail.flatten)) ∧
        c.save (c.updates h' tail) = c.save (c.updates (c.updates c.new l) tail) := by
  obtain ⟨inv, L, S, -⟩ := hc.laws
  exact C04_save_load c L S l

/-- C05. Deserialization of arbitrary bytes, for every serializable hasher of the library: anything accepted is a well-formed
hasher whose serialization is those bytes. -/
theorem C05_library {σ ω : Type} {c : Core σ ω} (hc : Serializable c) (raw : Bytes) (h : Hasher σ) (hl : c.load raw = some h) :
    h.buf.WF c.kind c.bs ∧ h.buf.pos ≤ c.bs ∧ c.save h = raw := by
  obtain ⟨inv, -, -, D⟩ := hc.laws
  exact C05_load_canonical c D raw h hl

/-- The serializable families whose types differ in the output size. -/
inductive SizedFamily : {σ : Type} → VarCore σ → Prop
  | sha256 : SizedFamily Sha256.varCore
  | sha512 : SizedFamily Sha512.varCore
  | groestlShort : SizedFamily (Groestl.varCore Groestl.short)
  | groestlLong : SizedFamily (Groestl.varCore Groestl.long)
  | kupynaShort : SizedFamily (Kupyna.varCore Kupyna.short)
  | kupynaLong : SizedFamily (Kupyna.varCore Kupyna.long)
  | streebog : SizedFamily Streebog.varCore
  | shabal : SizedFamily Shabal.varCore

/-- C05. A state saved by one output size of a family is rejected by every other output size of it (for instance a SHA-224 state
by SHA-256). -/
theorem C05_other_size {σ : Type} {v : VarCore σ} (hv : SizedFamily v) {n n' : Nat} {c c' : Core σ Bytes} (hc : v.ct n = some c)
    (hc' : v.ct n' = some c') (hne : n ≠ n') (h : Hasher σ) : c.load (c'.save h) = none := by
  have hS : v.SerLawful ∧ v.outLen < 256 := by
    cases hv with
    | sha256 => exact ⟨Sha256.serLawful, by decide⟩
    | sha512 => exact ⟨Sha512.serLawful, by decide⟩
    | groestlShort => exact ⟨Groestl.serLawful (by decide), by decide⟩
    | groestlLong => exact ⟨Groestl.serLawful (by decide), by decide⟩
    | kupynaShort => exact ⟨Kupyna.serLawful (by decide), by decide⟩
    | kupynaLong => exact ⟨Kupyna.serLawful (by decide), by decide⟩
    | streebog => exact ⟨Streebog.serLawful, by decide⟩
    | shabal => exact ⟨Shabal.serLawful, by decide⟩
  obtain ⟨h1, s, -, rfl⟩ := VarCore.ct_inv hc
  obtain ⟨h2, s', -, rfl⟩ := VarCore.ct_inv hc'
  have hl := hS.1.len h.core
  have hb : BitVec.ofNat 8 n' ≠ BitVec.ofNat 8 n := fun e => by
    have := congrArg BitVec.toNat e
    rw [BitVec.toNat_ofNat, BitVec.toNat_ofNat, Nat.mod_eq_of_lt (by omega), Nat.mod_eq_of_lt (by omega)] at this
    exact hne this.symm
  have hd : (v.ctWith n s).deserialize (((v.ctWith n' s').save h).take (v.serLen + 1)) = none := by
    simp only [VarCore.ctWith, Core.save]
    rw [List.take_left' (by simp [hl]), List.drop_left' hl]
    simp [hb]
  rw [Core.load, show (v.ctWith n s).serLen = v.serLen + 1 from rfl, hd]

/-- Concrete case: the families contain different sizes with states of one length; and outside the families there is no such check — a
saved MD4 state is a valid MD5 state. -/
example : (∃ c, Groestl.core Groestl.short 28 = some c) ∧ (∃ c, Groestl.core Groestl.short 32 = some c) ∧
    (Sha256.sha256.load (Sha256.sha224.save Sha256.sha224.new)).isSome = false ∧
    (Md5.md5.load (Md4.md4.save (Md4.md4.update Md4.md4.new [1, 2, 3]))).isSome = true :=
  ⟨⟨_, rfl⟩, ⟨_, rfl⟩, by decide +kernel, by decide +kernel⟩

/-- Concrete cases: the catalogue is inhabited by both kinds, and lazy buffering is visible (a full BLAKE2s block is kept). -/
example : ∃ c, Blake2.core Blake2.cfgS 32 = some c ∧ Library c ∧ c.kind = .lazy ∧
    (c.updates c.new [List.replicate 60 7, List.replicate 4 9]).buf.pos = 64 :=
  ⟨_, rfl, .blake2s 32 _ rfl, rfl, by decide +kernel⟩
example : (Sha3.sha3_256.updates Sha3.sha3_256.new [List.replicate 130 7, List.replicate 6 9]).buf.pos = 0 := by decide +kernel
/-- Concrete case: a stored SM3 state is accepted, the same bytes with buffer position 64 are not. -/
example : (Sm3.sm3.load (Sm3.sm3.save Sm3.sm3.new)).isSome = true ∧
    (Sm3.sm3.load ((Sm3.sm3.save Sm3.sm3.new).set 40 64)).isSome = false := by decide +kernel

end Hashes
