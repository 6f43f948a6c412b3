import Verif.Props.Fsb
import Verif.Proof.HashersPlain
import Verif.Proof.XofC
import Verif.Proof.Wide.Sponge
/-
C67: the complete behaviour of whole hashers in builds with overflow checks.  `run l` creates the hasher, passes it the chunks `l`
one `update` after the other and finalizes it, all with Rust's run-time checks; `none` is a panic.
-/
namespace Hashes
open Rs

/-! ### Hashers that count blocks -/

/-- C67 (SHA-1). -/
theorem C67_sha1 (l : List Bytes) :
    Sha1.sha1C.run l = if l.flatten.length < 2 ^ 61 then some (Spec.Sha1.sha1 l.flatten) else none :=
  limit_run .sha1 (Sha1.run_eq l) fun _ => C08_sha1 l

/-- C67 (SHA-224, SHA-256; no other size). -/
theorem C67_sha256 (l : List Bytes) :
    (Sha256.sha256C 28).run l = (if l.flatten.length < 2 ^ 61 then some (Spec.Sha256.sha224 l.flatten) else none) ∧
    (Sha256.sha256C 32).run l = (if l.flatten.length < 2 ^ 61 then some (Spec.Sha256.sha256 l.flatten) else none) ∧
    ∀ N, N ≠ 28 → N ≠ 32 → (Sha256.sha256C N).run l = none :=
  ⟨limit_run .sha256 (Sha256.run_eq rfl rfl (by decide) l) fun _ => C06_sha224 l,
    limit_run .sha256 (Sha256.run_eq rfl rfl (by decide) l) fun _ => C06_sha256 l, fun N h1 h2 => by
      refine run_none ?_ l
      show Option.map _ (Option.map _ (Sha256.new N)) = none
      unfold Sha256.new
      split <;> first | rfl | contradiction⟩

/-- C67 (SHA-512/224, SHA-512/256, SHA-384, SHA-512; no other size). -/
theorem C67_sha512 (l : List Bytes) :
    (Sha512.sha512C 28).run l = (if l.flatten.length < 2 ^ 125 then some (Spec.Sha512.sha512_224 l.flatten) else none) ∧
    (Sha512.sha512C 32).run l = (if l.flatten.length < 2 ^ 125 then some (Spec.Sha512.sha512_256 l.flatten) else none) ∧
    (Sha512.sha512C 48).run l = (if l.flatten.length < 2 ^ 125 then some (Spec.Sha512.sha384 l.flatten) else none) ∧
    (Sha512.sha512C 64).run l = (if l.flatten.length < 2 ^ 125 then some (Spec.Sha512.sha512 l.flatten) else none) ∧
    ∀ N, N ≠ 28 → N ≠ 32 → N ≠ 48 → N ≠ 64 → (Sha512.sha512C N).run l = none :=
  ⟨limit_run .sha512 (Sha512.run_eq rfl rfl (by decide) l) fun _ => C07_sha512_224 l,
    limit_run .sha512 (Sha512.run_eq rfl rfl (by decide) l) fun _ => C07_sha512_256 l,
    limit_run .sha512 (Sha512.run_eq rfl rfl (by decide) l) fun _ => C07_sha384 l,
    limit_run .sha512 (Sha512.run_eq rfl rfl (by decide) l) fun _ => C07_sha512 l, fun N h1 h2 h3 h4 => by
      refine run_none ?_ l
      show Option.map _ (Option.map _ (Sha512.new N)) = none
      unfold Sha512.new
      split <;> first | rfl | contradiction⟩

/-- C67 (SM3). -/
theorem C67_sm3 (l : List Bytes) : Sm3.sm3C.run l = if l.flatten.length < 2 ^ 61 then some (Spec.Sm3.sm3 l.flatten) else none :=
  limit_run .sm3 (Sm3.run_eq l) fun _ => C14_sm3 l

/-- C67 (RIPEMD-128, RIPEMD-160, RIPEMD-256, RIPEMD-320). -/
theorem C67_ripemd (l : List Bytes) :
    (Ripemd.ripemdC Ripemd.C128.M).run l = (if l.flatten.length < 2 ^ 61 then some (Spec.Ripemd.ripemd128 l.flatten) else none) ∧
    (Ripemd.ripemdC Ripemd.C160.M).run l = (if l.flatten.length < 2 ^ 61 then some (Spec.Ripemd.ripemd160 l.flatten) else none) ∧
    (Ripemd.ripemdC Ripemd.C256.M).run l = (if l.flatten.length < 2 ^ 61 then some (Spec.Ripemd.ripemd256 l.flatten) else none) ∧
    (Ripemd.ripemdC Ripemd.C320.M).run l = (if l.flatten.length < 2 ^ 61 then some (Spec.Ripemd.ripemd320 l.flatten) else none) :=
  ⟨limit_run .ripemd (Ripemd.run_eq (fun _ => rfl) l) fun _ => C13_ripemd128 l, limit_run .ripemd (Ripemd.run_eq (fun _ => rfl) l) fun _ => C13_ripemd160 l,
    limit_run .ripemd (Ripemd.run_eq (fun _ => rfl) l) fun _ => C13_ripemd256 l,
    limit_run .ripemd (Ripemd.run_eq (M := Ripemd.C320.M) (fun _ => rfl) l) fun _ => C13_ripemd320 l⟩

/-- C67 (Tiger, Tiger2). -/
theorem C67_tiger (l : List Bytes) :
    (Tiger.tigerC false).run l = (if l.flatten.length < 2 ^ 61 then some (Spec.Tiger.hash Spec.Tiger.Gen.sbox 1 l.flatten) else none) ∧
    (Tiger.tigerC true).run l = (if l.flatten.length < 2 ^ 61 then some (Spec.Tiger.hash Spec.Tiger.Gen.sbox 128 l.flatten) else none) :=
  ⟨limit_run .tiger (Tiger.run_eq false l) fun _ => C39_tiger l, limit_run .tiger (Tiger.run_eq true l) fun _ => C39_tiger2 l⟩

/-- C67 (FSB), every table of the size of pi.bin. -/
theorem C67_fsb (x : Fsb.Params × Spec.Fsb.Params) (hx : x ∈ fsbSets) (PI : Bytes) (hPI : PI.length = 272384) (l : List Bytes) :
    (Fsb.fsbC x.1 PI).run l = if l.flatten.length < 2 ^ 61 then some (Spec.Fsb.hash x.2 PI l.flatten) else none := by
  obtain ⟨h1, h2, h3⟩ := fsbSets_mem hx
  exact limit_run (.fsb x.1 h1) (Fsb.run_eq h1 (by rw [hPI]; exact h3) l) fun _ => by rw [h2]

/-- C67 (Grøstl): every output size. -/
theorem C67_groestl (N : Nat) (l : List Bytes) :
    (Groestl.groestlC Groestl.short N).run l = (if N ≤ 32 then
      if l.flatten.length < (2 ^ 64 - 1) * 64 - 8 then some (Spec.Groestl.hash Spec.Groestl.p512 N l.flatten) else none else none) ∧
    (Groestl.groestlC Groestl.long N).run l = (if N ≤ 64 then
      if l.flatten.length < (2 ^ 64 - 1) * 128 - 8 then some (Spec.Groestl.hash Spec.Groestl.p1024 N l.flatten) else none else none) := by
  constructor
  · split
    · next h =>
      obtain ⟨c, hc, h35⟩ := C35_short N h
      obtain ⟨_, s0, h0, rfl⟩ := VarCore.ct_inv hc
      exact limit_run (.groestl Groestl.short (.inl rfl)) (Groestl.run_eq Groestl.indices_short (by decide) rfl h0 (by
        have h0 : Groestl.new Groestl.short N = some s0 := h0
        rw [Groestl.new] at h0; split at h0 <;> cases h0; rfl) h l) fun _ => h35 l
    · next h =>
      refine run_none ?_ l
      show Option.map _ (Option.map _ (Groestl.new Groestl.short N)) = none
      rw [Groestl.new, if_pos (by show 32 < N; omega)]; rfl
  · split
    · next h =>
      obtain ⟨c, hc, h35⟩ := C35_long N h
      obtain ⟨_, s0, h0, rfl⟩ := VarCore.ct_inv hc
      exact limit_run (.groestl Groestl.long (.inr rfl)) (Groestl.run_eq Groestl.indices_long (by decide) rfl h0 (by
        have h0 : Groestl.new Groestl.long N = some s0 := h0
        rw [Groestl.new] at h0; split at h0 <;> cases h0; rfl) h l) fun _ => h35 l
    · next h =>
      refine run_none ?_ l
      show Option.map _ (Option.map _ (Groestl.new Groestl.long N)) = none
      rw [Groestl.new, if_pos (by show 64 < N; omega)]; rfl

/-- C67 (Kupyna): every output size. -/
theorem C67_kupyna (N : Nat) (l : List Bytes) :
    (Kupyna.kupynaC Kupyna.short N).run l = (if N ≤ 32 then
      if l.flatten.length < 2 ^ 64 * 64 then some (Spec.Kupyna.hash Spec.Kupyna.p512 kupynaPi N l.flatten) else none else none) ∧
    (Kupyna.kupynaC Kupyna.long N).run l = (if 32 ≤ N ∧ N ≤ 64 then
      if l.flatten.length < 2 ^ 64 * 128 then some (Spec.Kupyna.hash Spec.Kupyna.p1024 kupynaPi N l.flatten) else none else none) := by
  constructor
  · split
    · next h =>
      obtain ⟨c, hc, h37⟩ := C37_short N h
      obtain ⟨_, s0, h0, rfl⟩ := VarCore.ct_inv hc
      have h0 : Kupyna.new Kupyna.short N = some s0 := h0
      have e : s0 = Kupyna.init Kupyna.short := by rw [Kupyna.new] at h0; split at h0 <;> cases h0; rfl
      subst e
      exact limit_run (.kupyna Kupyna.short (.inl rfl)) (Kupyna.run_eq (by decide) (by decide) (by decide) rfl h0 h l) fun hl => h37 l
        (Nat.div_lt_of_lt_mul (by rw [Nat.mul_comm]; exact hl))
    · next h =>
      refine run_none ?_ l
      show Option.map _ (Option.map _ (Kupyna.new Kupyna.short N)) = none
      rw [Kupyna.new, if_pos (.inr (by show 32 < N; omega))]; rfl
  · split
    · next h =>
      obtain ⟨c, hc, h37⟩ := C37_long N h.1 h.2
      obtain ⟨_, s0, h0, rfl⟩ := VarCore.ct_inv hc
      have h0 : Kupyna.new Kupyna.long N = some s0 := h0
      have e : s0 = Kupyna.init Kupyna.long := by rw [Kupyna.new] at h0; split at h0 <;> cases h0; rfl
      subst e
      exact limit_run (.kupyna Kupyna.long (.inr rfl)) (Kupyna.run_eq (by decide) (by decide) (by decide) rfl h0 h.2 l) fun hl => h37 l
        (Nat.div_lt_of_lt_mul (by rw [Nat.mul_comm]; exact hl))
    · next h =>
      refine run_none ?_ l
      show Option.map _ (Option.map _ (Kupyna.new Kupyna.long N)) = none
      rw [Kupyna.new, if_pos (by show N < 32 ∨ 64 < N; omega)]; rfl

/-- C67 (MD4, MD5, MD2): any length; MD4 and MD5 count modulo 2^64 as their specifications do. -/
theorem C67_md (l : List Bytes) :
    Md4.md4C.run l = some (Spec.Md4.md4 l.flatten) ∧ Md5.md5C.run l = some (Spec.Md5.md5 l.flatten) ∧
    Md2.md2C.run l = some (Spec.Md2.md2 l.flatten) := ⟨Md4.run_eq l, Md5.run_eq l, Md2.run_eq l⟩

/-- C67 (JH): never a panic for the four sizes; the specification's digest below 2^64 bits. Other sizes panic on creation. -/
theorem C67_jh (l : List Bytes) :
    (∀ N, N = 28 ∨ N = 32 ∨ N = 48 ∨ N = 64 → ∃ d, (Jh.jhC N).run l = some d ∧ (8 * l.flatten.length < 2 ^ 64 → d = Spec.Jh.hash N l.flatten)) ∧
    ∀ N, ¬ (N = 28 ∨ N = 32 ∨ N = 48 ∨ N = 64) → (Jh.jhC N).run l = none := by
  constructor
  · intro N hN
    obtain ⟨s0, h0, hz⟩ : ∃ s0, Jh.new N = some s0 ∧ s0.blockLen = 0 := by rcases hN with rfl | rfl | rfl | rfl <;> exact ⟨_, rfl, rfl⟩
    have hN' : N ≤ 64 := by omega
    exact ⟨_, Jh.run_eq h0 hz hN' l, fun hl => C38_jh N _ (VarCore.ct_some (v := Jh.varCore) hN' h0) l hl⟩
  · intro N hN
    refine run_none ?_ l
    show Option.map _ (Option.map _ (Jh.new N)) = none
    unfold Jh.new
    split <;> first | rfl | omega

/-! ### Hashers without a counter, or with one that cannot overflow -/

set_option exponentiation.threshold 600 in
/-- C67 (Streebog): never a panic for the two sizes; the specification's digest below 2^448 bits. -/
theorem C67_streebog (l : List Bytes) :
    (∀ N, N = 32 ∨ N = 64 → ∃ d, (Streebog.streebogC N).run l = some d ∧
      (8 * l.flatten.length < 2 ^ 448 → d = Spec.Streebog.hash streebogC N l.flatten)) ∧
    ∀ N, ¬ (N = 32 ∨ N = 64) → (Streebog.streebogC N).run l = none := by
  constructor
  · intro N hN
    obtain ⟨c, hc, h36⟩ := C36_streebog N hN
    obtain ⟨_, s0, h0, rfl⟩ := VarCore.ct_inv hc
    exact ⟨_, Streebog.run_eq h0 (by omega) l, h36 l⟩
  · intro N hN
    refine run_none ?_ l
    show Option.map _ (Streebog.new N) = none
    unfold Streebog.new
    split <;> first | rfl | omega

/-- C67 (Shabal): any length; five sizes. -/
theorem C67_shabal (l : List Bytes) :
    (∀ N, N = 24 ∨ N = 28 ∨ N = 32 ∨ N = 48 ∨ N = 64 → (Shabal.shabalC N).run l = some (Spec.Shabal.hash N l.flatten)) ∧
    ∀ N, ¬ (N = 24 ∨ N = 28 ∨ N = 32 ∨ N = 48 ∨ N = 64) → (Shabal.shabalC N).run l = none := by
  constructor
  · intro N hN
    obtain ⟨s0, h0⟩ : ∃ s0, Shabal.new N = some s0 := by rcases hN with rfl | rfl | rfl | rfl | rfl <;> exact ⟨_, rfl⟩
    have hN' : N ≤ 64 := by omega
    rw [Shabal.run_eq h0 hN' l, C41_shabal N _ (VarCore.ct_some (v := Shabal.varCore) hN' h0) l]
  · intro N hN
    refine run_none ?_ l
    show Option.map _ (Shabal.new N) = none
    unfold Shabal.new
    split <;> first | rfl | omega

/-- Blocks that one `update` with the bytes `x` passes to `update_blocks` as one slice, when `p` bytes are buffered: whole blocks of
`x` after the bytes that complete the buffered block. -/
def slice64 (p : Nat) (x : Bytes) : Nat := if p = 0 then x.length / 64 else (x.length - (64 - p)) / 64

/-- No `update` of `l` has a slice of `2^55` blocks or more; `p` bytes are buffered at first. -/
def slicesFit (p : Nat) : List Bytes → Prop
  | [] => True
  | x :: l => slice64 p x < 2 ^ 55 ∧ slicesFit ((p + x.length) % 64) l

/-- C67 (Whirlpool): any length; a panic exactly when one `update` has a slice of `2^55` blocks (`2^61` bytes), whose length in
bits is computed in 64 bits. -/
theorem C67_whirlpool (l : List Bytes) :
    (slicesFit 0 l → Whirlpool.whirlpoolC.run l = some (Spec.Whirlpool.whirlpool l.flatten)) ∧
    (¬ slicesFit 0 l → Whirlpool.whirlpoolC.run l = none) := by
  have e : ∀ (l : List Bytes) (p : Nat), Whirlpool.fitsAll p l = true ↔ slicesFit p l := by
    intro l
    induction l with
    | nil => exact fun p => by simp [Whirlpool.fitsAll, slicesFit]
    | cons x l ih => exact fun p => by simp only [Whirlpool.fitsAll, slicesFit, Bool.and_eq_true, decide_eq_true_eq, ih]; exact Iff.rfl
  rw [Whirlpool.run_eq]
  exact ⟨fun h => if_pos ((e l 0).2 h), fun h => if_neg fun h' => h ((e l 0).1 h')⟩

/-- Updates of fewer than `2^61` bytes each are enough. -/
theorem C67_whirlpool_small (l : List Bytes) (h : ∀ x ∈ l, x.length < 2 ^ 61) :
    Whirlpool.whirlpoolC.run l = some (Spec.Whirlpool.whirlpool l.flatten) := by
  refine (C67_whirlpool l).1 ?_
  generalize 0 = p
  induction l generalizing p with
  | nil => trivial
  | cons x l ih =>
    refine ⟨?_, ih (fun y hy => h y (List.mem_cons_of_mem _ hy)) _⟩
    have := h x List.mem_cons_self
    unfold slice64
    split <;> omega

/-- C67 (GOST R 34.11-94), the four parameter sets: any length, every slice that fits in the address space. -/
theorem C67_gost94 (l : List Bytes) (h : ∀ x ∈ l, x.length < 2 ^ 64) :
    ∀ sb, sb = Gost94.cryptoProBox ∨ sb = Gost94.s2015Box ∨ sb = Gost94.testBox ∨ sb = Gost94.uaBox →
      (Gost94.gost94C sb (List.replicate 32 0)).run l = some (Spec.Gost94.hash sb 0 l.flatten) := by
  have z : Spec.Gost94.vec (List.replicate 32 0) = 0 := by decide +kernel
  intro sb hs
  have hb : Gost94.IsBox sb := by
    rcases hs with rfl | rfl | rfl | rfl
    · exact C60_gost94_boxes.1
    · exact C60_gost94_boxes.2.1
    · exact C60_gost94_boxes.2.2.1
    · exact C60_gost94_boxes.2.2.2
  rw [Gost94.run_eq hb rfl l h, z]

/-- The block cipher of STB 34.101.31 on arrays of words. -/
def beltBlockC : Belt.CipherC := fun x k => (V4.ofFn (wordLE 32 (Spec.Belt.block (bytesOfWordsLE k) (bytesOfWordsLE x)))).toList

/-- C67 (BelT): the standard's digest below 2^125 bytes, a panic from there to 2^133 bytes, where the block counter wraps. -/
theorem C67_belt (l : List Bytes) :
    (l.flatten.length < 2 ^ 125 → (Belt.beltC beltBlockC).run l = some (Spec.Belt.hash Spec.Belt.block l.flatten)) ∧
    (2 ^ 125 ≤ l.flatten.length → l.flatten.length < 2 ^ 133 → (Belt.beltC beltBlockC).run l = none) := by
  have e := Belt.run_eq (E := beltBlockC) (E' := beltBlock) (fun _ _ => rfl) l
  constructor
  · intro h
    rw [e, C29_belt l (by omega), C44_standard]; rfl
  · intro h h'
    have : Count.belt.core.finish (Count.belt.core.updates Count.belt.core.new l) = none := by
      refine (Count.finish_wbump (by decide) l).trans ?_
      generalize l.flatten.length = L at *
      simp only [Count.mul, Count.add]
      rw [Nat.mod_eq_of_lt (by omega : L / 32 < 2 ^ 128)]
      by_cases h1 : 32 * (L / 32) < 2 ^ 128
      · rw [if_pos h1, Option.bind_some]
        by_cases h2 : 32 * (L / 32) + L % 32 < 2 ^ 128
        · rw [if_pos h2, Option.bind_some, if_neg (by omega)]
        · rw [if_neg h2]; rfl
      · rw [if_neg h1]; rfl
    rw [e, this]; rfl

/-! ### Byte counters -/

theorem Blake2.newC_eq {w : Nat} {c : Cfg w} (hl : c.bytes / 4 = 2 * (w / 8)) (hw : 8 < w) {N : Nat} (hN : N ≤ c.bytes) :
    newC c N = newWithParams c [] [] 0 N := by
  rw [newC]
  exact bind_ok (check_of hN) (newWithParamsC_eq hl hw _ _ _ _)

/-- C67 (BLAKE2b, BLAKE2s): every output size. -/
theorem C67_blake2 (N : Nat) (l : List Bytes) :
    (Blake2.blake2C Blake2.cfgB (Blake2.newC Blake2.cfgB N) N).run l = (if N ≤ 64 then
      if l.flatten.length < 2 ^ 64 then some (Spec.Blake2.hash Spec.Blake2.b N [] [] [] l.flatten) else none else none) ∧
    (Blake2.blake2C Blake2.cfgS (Blake2.newC Blake2.cfgS N) N).run l = (if N ≤ 32 then
      if l.flatten.length < 2 ^ 64 then some (Spec.Blake2.hash Spec.Blake2.s N [] [] [] l.flatten) else none else none) := by
  constructor
  · split
    · next h =>
      rcases Blake2.params_eq Blake2.goodB.h4 Blake2.goodB.M Blake2.goodB.hb Blake2.goodB.head [] [] 0 N with ⟨h1, -⟩ | ⟨-, s, h2, ht, -⟩
      · exact absurd ⟨Nat.zero_le _, h, Nat.zero_le _, Nat.zero_le _⟩ h1
      · exact limit_run .blake2b (Blake2.run_eq (c := Blake2.cfgB) (by decide) (.inl rfl) rfl rfl (by decide)
          ((Blake2.newC_eq (c := Blake2.cfgB) rfl (by decide) h).trans h2) ht h l) fun hl => Blake2.hash_of_chunks Blake2.goodB h2 l fun k hk => Blake2.countB (by omega)
    · next h =>
      refine run_none ?_ l
      show Blake2.newC Blake2.cfgB N = none
      exact congrArg (Option.bind · _) (if_neg h)
  · split
    · next h =>
      rcases Blake2.params_eq Blake2.goodS.h4 Blake2.goodS.M Blake2.goodS.hb Blake2.goodS.head [] [] 0 N with ⟨h1, -⟩ | ⟨-, s, h2, ht, -⟩
      · exact absurd ⟨Nat.zero_le _, h, Nat.zero_le _, Nat.zero_le _⟩ h1
      · exact limit_run .blake2s (Blake2.run_eq (c := Blake2.cfgS) (by decide) (.inr rfl) rfl rfl (by decide)
          ((Blake2.newC_eq (c := Blake2.cfgS) rfl (by decide) h).trans h2) ht h l) fun _ => Blake2.hash_of_chunks Blake2.goodS h2 l fun k _ => Blake2.countS k
    · next h =>
      refine run_none ?_ l
      show Blake2.newC Blake2.cfgS N = none
      exact congrArg (Option.bind · _) (if_neg h)

/-- C67 (BLAKE2 with a personalisation): every output size and personalisation. -/
theorem C67_blake2_customized (persona : Bytes) (N : Nat) (l : List Bytes) :
    (Blake2.blake2C Blake2.cfgB (Blake2.newWithParamsC Blake2.cfgB [] persona 0 N) N).run l = (if N ≤ 64 ∧ persona.length ≤ 16 then
      if l.flatten.length < 2 ^ 64 then some (Spec.Blake2.hash Spec.Blake2.b N [] [] persona l.flatten) else none else none) ∧
    (Blake2.blake2C Blake2.cfgS (Blake2.newWithParamsC Blake2.cfgS [] persona 0 N) N).run l = (if N ≤ 32 ∧ persona.length ≤ 8 then
      if l.flatten.length < 2 ^ 64 then some (Spec.Blake2.hash Spec.Blake2.s N [] [] persona l.flatten) else none else none) := by
  have eB := Blake2.newWithParamsC_eq (c := Blake2.cfgB) rfl (by decide) [] persona 0 N
  have eS := Blake2.newWithParamsC_eq (c := Blake2.cfgS) rfl (by decide) [] persona 0 N
  constructor
  · rcases Blake2.params_eq Blake2.goodB.h4 Blake2.goodB.M Blake2.goodB.hb Blake2.goodB.head [] persona 0 N with ⟨h1, h2⟩ | ⟨h, s, h2, ht, -⟩
    · rw [if_neg fun h => h1 ⟨Nat.zero_le _, h.1, Nat.zero_le _, h.2⟩]
      exact run_none (eB.trans h2) l
    · rw [if_pos ⟨h.2.1, h.2.2.2⟩]
      exact limit_run .blake2b (Blake2.run_eq (c := Blake2.cfgB) (by decide) (.inl rfl) rfl rfl (by decide) (eB.trans h2) ht h.2.1 l)
        fun hl => Blake2.hash_of_chunks Blake2.goodB h2 l fun k hk => Blake2.countB (by omega)
  · rcases Blake2.params_eq Blake2.goodS.h4 Blake2.goodS.M Blake2.goodS.hb Blake2.goodS.head [] persona 0 N with ⟨h1, h2⟩ | ⟨h, s, h2, ht, -⟩
    · rw [if_neg fun h => h1 ⟨Nat.zero_le _, h.1, Nat.zero_le _, h.2⟩]
      exact run_none (eS.trans h2) l
    · rw [if_pos ⟨h.2.1, h.2.2.2⟩]
      exact limit_run .blake2s (Blake2.run_eq (c := Blake2.cfgS) (by decide) (.inr rfl) rfl rfl (by decide) (eS.trans h2) ht h.2.1 l)
        fun _ => Blake2.hash_of_chunks Blake2.goodS h2 l fun k _ => Blake2.countS k

/-- Threefish on arrays of words. -/
def threefishC (n : Nat) : Skein.CipherC := fun k t x =>
  (Arr.ofFn n fun i => (Spec.Skein.threefishW n k [t.1, t.2] x).getD i 0 : Arr 64 n).toList

/-- C67 (Skein-256, Skein-512, Skein-1024): every output size of a multiple of eight bytes. -/
theorem C67_skein (n : Nat) (hn : n = 4 ∨ n = 8 ∨ n = 16) (N : Nat) (h8 : 8 ∣ N) (hN : N < 2 ^ 61) (l : List Bytes) :
    (Skein.skeinC (threefishC n) n N).run l =
      if l.flatten.length < 2 ^ 64 then some (Spec.Skein.hash (Spec.Skein.threefish n) (8 * n) N l.flatten) else none :=
  limit_run (.skein n hn) (Skein.run_eq (E := threefishC n) (E' := threefish n) (fun _ _ _ => rfl) (by omega) (by omega) (by omega) l)
    fun hl => C43_standard hn N h8 l hl

/-- C67 (Skein), any output size: below `2^64` bytes no panic, but of the standard's digest only the whole words are there (C43), the rest is zero. -/
theorem C67_skein_any (n : Nat) (hn : n = 4 ∨ n = 8 ∨ n = 16) (N : Nat) (hN : N < 2 ^ 61) (l : List Bytes) :
    (Skein.skeinC (threefishC n) n N).run l =
      if l.flatten.length < 2 ^ 64 then
        some ((Spec.Skein.hash (Spec.Skein.threefish n) (8 * n) N l.flatten).take (8 * (N / 8)) ++ List.replicate (N % 8) 0)
      else none :=
  limit_run (.skein n hn) (Skein.run_eq (E := threefishC n) (E' := threefish n) (fun _ _ _ => rfl) (by omega) (by omega) (by omega) l)
    fun hl => C43_skein_partial (by omega) _ _ (threefish_octets hn) N l hl

/-! ### Sponges -/

/-- C67 (SHA-3 and Keccak): any length. -/
theorem C67_sha3 (l : List Bytes) :
    (Sha3.fixedC Sha3.f24 28 144 0x06).run l = some (Spec.Keccak.sha3 28 l.flatten) ∧
    (Sha3.fixedC Sha3.f24 32 136 0x06).run l = some (Spec.Keccak.sha3 32 l.flatten) ∧
    (Sha3.fixedC Sha3.f24 48 104 0x06).run l = some (Spec.Keccak.sha3 48 l.flatten) ∧
    (Sha3.fixedC Sha3.f24 64 72 0x06).run l = some (Spec.Keccak.sha3 64 l.flatten) ∧
    (Sha3.fixedC Sha3.f24 28 144 0x01).run l = some (Spec.Keccak.keccakOrig 448 28 l.flatten) ∧
    (Sha3.fixedC Sha3.f24 32 136 0x01).run l = some (Spec.Keccak.keccakOrig 512 32 l.flatten) ∧
    (Sha3.fixedC Sha3.f24 48 104 0x01).run l = some (Spec.Keccak.keccakOrig 768 48 l.flatten) ∧
    (Sha3.fixedC Sha3.f24 64 72 0x01).run l = some (Spec.Keccak.keccakOrig 1024 64 l.flatten) ∧
    (Sha3.fixedC Sha3.f24 200 136 0x01).run l = some (Spec.Keccak.keccakState 512 l.flatten) := by
  have r {N rate : Nat} (h0 : 0 < rate) (h8 : rate % 8 = 0) (hN : N ≤ 200) (pad : Byte) {d : Bytes}
      (h : (Sha3.fixed Sha3.f24 N rate pad).finish ((Sha3.fixed Sha3.f24 N rate pad).updates (Sha3.fixed Sha3.f24 N rate pad).new l) = d) :
      (Sha3.fixedC Sha3.f24 N rate pad).run l = some d := h ▸ Sha3.fixed_run Sha3.perm24 h0 h8 hN pad l
  exact ⟨r (by decide) rfl (by decide) _ (C15_sha3 l).1, r (by decide) rfl (by decide) _ (C15_sha3 l).2.1,
    r (by decide) rfl (by decide) _ (C15_sha3 l).2.2.1, r (by decide) rfl (by decide) _ (C15_sha3 l).2.2.2,
    r (by decide) rfl (by decide) _ (C15_keccak l).1, r (by decide) rfl (by decide) _ (C15_keccak l).2.1,
    r (by decide) rfl (by decide) _ (C15_keccak l).2.2.1, r (by decide) rfl (by decide) _ (C15_keccak l).2.2.2,
    r (by decide) rfl (by decide) _ (C15_keccak256Full l)⟩

/-! The readers: `output t bufs` are the bytes that a fresh reader on the final state `t` leaves in the caller's buffers `bufs`, one
`read` each. -/

/-- The number of bytes asked for. -/
def total (bufs : List Bytes) : Nat := (bufs.map List.length).sum

theorem Sha3.output_eq {f : Sha3.Lanes → Sha3.Lanes} (hf : Sha3.Perm f) {rate : Nat} (h0 : 0 < rate) (hr : rate ≤ 200) {t : Sha3.Lanes}
    (ht : t.length = 25) (bufs : List Bytes) :
    (Sha3.xofC f rate).output t bufs = some ((Sha3.xof f rate).reads ((Sha3.xof f rate).reader t) (bufs.map List.length)).1 :=
  XofC.output_eq (Sha3.xof_lawful hf h0 hr) (Sha3.xofC_of hr) ht bufs

theorem Sha3.shake_out {f : Sha3.Lanes → Sha3.Lanes} (hf : Sha3.Perm f) {rate : Nat} (h0 : 0 < rate) (h8 : 8 ∣ rate) (hr : rate ≤ 200)
    {D : Byte} (hD : D.toNat < 128) (l : List Bytes) : let c := Sha3.shake f rate D
    ∃ t, (Sha3.shakeC f rate D).run l = some t ∧ ∀ bufs, (Sha3.xofC f rate).output t bufs =
      some ((Sha3.xof f rate).reads ((Sha3.xof f rate).reader (c.finish (c.updates c.new l))) (bufs.map List.length)).1 := by
  refine ⟨_, Sha3.shake_run hf h0 (Nat.mod_eq_zero_of_dvd h8) _ l, fun bufs => Sha3.output_eq hf h0 hr ?_ bufs⟩
  rw [C01_digest_of_chunks _ (Sha3.shake_lawful hf h0 D)]
  exact (Sha3.shake_digest_eq hf h0 h8 hr hD l.flatten).1

theorem Sha3.turbo_out {f : Sha3.Lanes → Sha3.Lanes} (hf : Sha3.Perm f) {rate : Nat} (h0 : 0 < rate) (h8 : 8 ∣ rate) (hr : rate ≤ 200)
    {d : Byte} {i : Sha3.Turbo} (hi : Sha3.Turbo.new d = some i) (l : List Bytes) : let c := Sha3.turbo f rate i
    ∃ t, (Sha3.turboC f rate d).run l = some t ∧ ∀ bufs, (Sha3.xofC f rate).output t bufs =
      some ((Sha3.xof f rate).reads ((Sha3.xof f rate).reader (c.finish (c.updates c.new l))) (bufs.map List.length)).1 := by
  refine ⟨_, Sha3.turbo_run hf h0 (Nat.mod_eq_zero_of_dvd h8) hi l, fun bufs => Sha3.output_eq hf h0 hr ?_ bufs⟩
  rw [C01_digest_of_chunks _ (Sha3.turbo_lawful hf h0 hi)]
  exact (Sha3.turbo_digest_eq hf h0 h8 hr hi l.flatten).1

theorem Sha3.cshake_out {f : Sha3.Lanes → Sha3.Lanes} (hf : Sha3.Perm f) {rate : Nat} (h0 : 0 < rate) (h8 : 8 ∣ rate) (hr : rate ≤ 200)
    {N S : Bytes} (hN : N.length < 2 ^ 61) (hS : S.length < 2 ^ 61) (l : List Bytes) : let c := Sha3.cshake f rate N S
    ∃ t, (Sha3.cshakeC f rate N S).run l = some t ∧ ∀ bufs, (Sha3.xofC f rate).output t bufs =
      some ((Sha3.xof f rate).reads ((Sha3.xof f rate).reader (c.finish (c.updates c.new l))) (bufs.map List.length)).1 := by
  refine ⟨_, Sha3.cshake_run hf h0 (Nat.mod_eq_zero_of_dvd h8) (by omega) (by omega) l, fun bufs => Sha3.output_eq hf h0 hr ?_ bufs⟩
  rw [C01_digest_of_chunks _ (Sha3.cshake_lawful hf h0 N S), Sha3.cshake_wide hf h0 (by omega) (by omega) (by omega)]
  exact Sha3.length_updateBlocks hf _ (by simp [Sha3.zero])

/-- C67 (SHAKE): any length; the reader returns the specification's output, whatever the buffers held. -/
theorem C67_shake (l : List Bytes) :
    (∃ t, (Sha3.shakeC Sha3.f24 168 0x1f).run l = some t ∧
      ∀ bufs, (Sha3.xofC Sha3.f24 168).output t bufs = some (Spec.Keccak.shake 128 l.flatten (total bufs))) ∧
    (∃ t, (Sha3.shakeC Sha3.f24 136 0x1f).run l = some t ∧
      ∀ bufs, (Sha3.xofC Sha3.f24 136).output t bufs = some (Spec.Keccak.shake 256 l.flatten (total bufs))) := by
  obtain ⟨t, h1, h2⟩ := Sha3.shake_out Sha3.perm24 (rate := 168) (D := 0x1f) (by decide) (by decide) (by decide) (by decide) l
  obtain ⟨u, h3, h4⟩ := Sha3.shake_out Sha3.perm24 (rate := 136) (D := 0x1f) (by decide) (by decide) (by decide) (by decide) l
  exact ⟨⟨t, h1, fun bufs => (h2 bufs).trans (congrArg some (C16_shake l _).1)⟩,
    ⟨u, h3, fun bufs => (h4 bufs).trans (congrArg some (C16_shake l _).2)⟩⟩

/-- C67 (TurboSHAKE): the constructor panics unless the domain separation byte is from 1 to 0x7F; otherwise any length. -/
theorem C67_turboShake (d : Byte) (l : List Bytes) :
    ((1 ≤ d.toNat ∧ d.toNat ≤ 0x7f) →
      (∃ t, (Sha3.turboC Sha3.f12 168 d).run l = some t ∧
        ∀ bufs, (Sha3.xofC Sha3.f12 168).output t bufs = some (Spec.Keccak.turboShake 128 l.flatten d (total bufs))) ∧
      (∃ t, (Sha3.turboC Sha3.f12 136 d).run l = some t ∧
        ∀ bufs, (Sha3.xofC Sha3.f12 136).output t bufs = some (Spec.Keccak.turboShake 256 l.flatten d (total bufs)))) ∧
    (¬ (1 ≤ d.toNat ∧ d.toNat ≤ 0x7f) → (Sha3.turboC Sha3.f12 168 d).run l = none ∧ (Sha3.turboC Sha3.f12 136 d).run l = none) := by
  constructor
  · intro h
    obtain ⟨i, hi⟩ : ∃ i, Sha3.Turbo.new d = some i := ⟨_, if_pos h⟩
    obtain ⟨t, h1, h2⟩ := Sha3.turbo_out Sha3.perm12 (rate := 168) (by decide) (by decide) (by decide) hi l
    obtain ⟨u, h3, h4⟩ := Sha3.turbo_out Sha3.perm12 (rate := 136) (by decide) (by decide) (by decide) hi l
    exact ⟨⟨t, h1, fun bufs => (h2 bufs).trans (congrArg some ((C22_turboShake d l _).1 _ (by rw [Sha3.turboShake128, hi]; rfl)))⟩,
      ⟨u, h3, fun bufs => (h4 bufs).trans (congrArg some ((C22_turboShake d l _).2 _ (by rw [Sha3.turboShake256, hi]; rfl)))⟩⟩
  · intro h
    have hi : Sha3.Turbo.new d = none := if_neg h
    exact ⟨Sha3.turbo_run_none hi l, Sha3.turbo_run_none hi l⟩

/-- C67 (cSHAKE): a panic exactly when the name or the customization has `2^61` bytes or more (lengths are below `2^64`);
otherwise any length, with the specification's output where C18 gives it. -/
theorem C67_cshake (N S : Bytes) (hN : N.length < 2 ^ 64) (hS : S.length < 2 ^ 64) (l : List Bytes) :
    (N.length < 2 ^ 61 ∧ S.length < 2 ^ 61 →
      (∃ t, (Sha3.cshakeC Sha3.f24 168 N S).run l = some t ∧ ∀ bufs, ((Sha3.xofC Sha3.f24 168).output t bufs).isSome ∧
        ((N = [] ∧ S = [] ∨ prefixLength 168 N S % 168 ≠ 0) →
          (Sha3.xofC Sha3.f24 168).output t bufs = some (Spec.Keccak.cshake 128 l.flatten (total bufs) N S))) ∧
      (∃ t, (Sha3.cshakeC Sha3.f24 136 N S).run l = some t ∧ ∀ bufs, ((Sha3.xofC Sha3.f24 136).output t bufs).isSome ∧
        ((N = [] ∧ S = [] ∨ prefixLength 136 N S % 136 ≠ 0) →
          (Sha3.xofC Sha3.f24 136).output t bufs = some (Spec.Keccak.cshake 256 l.flatten (total bufs) N S)))) ∧
    (¬ (N.length < 2 ^ 61 ∧ S.length < 2 ^ 61) →
      (Sha3.cshakeC Sha3.f24 168 N S).run l = none ∧ (Sha3.cshakeC Sha3.f24 136 N S).run l = none) := by
  constructor
  · rintro ⟨h1, h2⟩
    obtain ⟨t, k1, k2⟩ := Sha3.cshake_out Sha3.perm24 (rate := 168) (by decide) (by decide) (by decide) h1 h2 l
    obtain ⟨u, k3, k4⟩ := Sha3.cshake_out Sha3.perm24 (rate := 136) (by decide) (by decide) (by decide) h1 h2 l
    exact ⟨⟨t, k1, fun bufs => ⟨by rw [k2]; rfl, fun h => (k2 bufs).trans (congrArg some ((C18_cshake_partial N S h1 h2 l _).1 h))⟩⟩,
      ⟨u, k3, fun bufs => ⟨by rw [k4]; rfl, fun h => (k4 bufs).trans (congrArg some ((C18_cshake_partial N S h1 h2 l _).2 h))⟩⟩⟩
  · intro h
    have e : ∀ x : Bytes, x.length < 2 ^ 64 → ¬ x.length < 2 ^ 61 → Sha3.bitsC x = none := fun x hx h => by
      refine if_neg ?_
      rw [BitVec.toNat_ofNat, show (8 : W64).toNat = 8 from rfl]
      omega
    have : Sha3.bitsC N = none ∨ Sha3.bitsC S = none := by
      by_cases h1 : N.length < 2 ^ 61
      · exact .inr (e S hS fun h2 => h ⟨h1, h2⟩)
      · exact .inl (e N hN h1)
    exact ⟨Sha3.cshake_run_none this l, Sha3.cshake_run_none this l⟩

/-- C67 (Ascon-Hash256 and Ascon-XOF128), for every permutation: any length. -/
theorem C67_ascon (P : Ascon.State → Ascon.State) (l : List Bytes) :
    (Ascon.hash256C P).run l = some (Spec.Ascon.sponge P Ascon.ivHash l.flatten 32) ∧
    ∃ t, (Ascon.xof128C P).run l = some t ∧
      ∀ bufs, (Ascon.readerC P).output t bufs = some (Spec.Ascon.sponge P Ascon.ivXof l.flatten (total bufs)) :=
  ⟨Ascon.run_eq P l, _, Ascon.xof_run_eq P l, fun bufs =>
    (XofC.output_eq (Ascon.reader_lawful P) (Ascon.readerC_of P) trivial bufs).trans (congrArg some (C45_xof128 P l _))⟩

/-- C67 (KangarooTwelve), for customization strings whose length fits in a `usize`: the limit is `2^64` chunks of 8192 bytes for
message, customization string and its encoded length together. -/
theorem C67_k12 (cust : Bytes) (hc : cust.length < 2 ^ 64) (l : List Bytes) :
    if l.flatten.length + cust.length + (Spec.K12.lengthEncode cust.length).length ≤ 2 ^ 77 then
      ∃ t, (K12.k12C cust).run l = some t ∧
        ∀ bufs, K12.xofC.output t bufs = some (Spec.K12.kt128 l.flatten cust (total bufs))
    else (K12.k12C cust).run l = none := by
  rw [K12.run_eq cust hc l]
  split
  swap
  · rfl
  refine ⟨_, rfl, fun bufs => (XofC.output_eq K12.xof_lawful K12.xofC_of ?_ bufs).trans (congrArg some (C23_k12 cust l _))⟩
  have L := K12.lawful cust
  have r := (Core.Rep.new L).updates L l
  rw [List.nil_append] at r
  obtain ⟨s, i, e⟩ := K12.finalize_inv r
  obtain ⟨d, X, d1, d2, e2, -⟩ := K12.tail_eq i (by simp [Spec.K12.lengthEncode])
  rw [e, e2]
  exact XofCore.WF.reader (K12.tread ⟨d1, d2⟩ X 0).1

/-! ### sha1-checked -/

/-- C67 (sha1-checked): with detection the limit is 2^64 bytes (the length in bits is shifted without a check), without it 2^61. -/
theorem C67_sha1Checked (x : Sha1Checked.Builder) (l : List Bytes) :
    (Sha1Checked.sha1CheckedC x).run l =
      if x.detectCollision then
        if l.flatten.length < 2 ^ 64 then
          let r := Spec.Sha1Cd.checked x.safeHash x.ubcCheck x.reducedRoundCollision l.flatten
          some (if r.2 then if x.safeHash then .mitigated r.1 else .collision r.1 else .ok r.1)
        else none
      else if l.flatten.length < 2 ^ 61 then some (.ok (Spec.Sha1.sha1 l.flatten)) else none := by
  have hf := C31_functional x l
  cases hx : x.detectCollision with
  | true =>
    rw [if_pos rfl]
    rw [if_pos hx] at hf
    exact limit_run .sha1Detect (Sha1Checked.detect_run hx l) fun _ => hf
  | false =>
    rw [if_neg (by decide)]
    rw [if_neg (by rw [hx]; decide)] at hf
    exact limit_run .sha1Plain (Sha1Checked.plain_run hx l) fun _ => hf

/-! ### Concrete cases -/

/-- SHA-256("abc") in two pieces, and three sizes that do not exist. -/
example : ((Sha256.sha256C 32).run [[0x61], [0x62, 0x63]]).map (·.take 4) = some [0xba, 0x78, 0x16, 0xbf] ∧
    ∀ N ∈ [0, 20, 33], (Sha256.sha256C N).run [[0x61]] = none := by decide +kernel
/-- `2^61` bytes: SHA-1 panics, MD5 does not. -/
example (x : Bytes) (h : x.length = 2 ^ 61) : Sha1.sha1C.run [x] = none ∧ (Md5.md5C.run [x]).isSome := by
  refine ⟨?_, by rw [(C67_md [x]).2.1]; rfl⟩
  rw [C67_sha1, if_neg (by simp [h])]
/-- BLAKE2b-512("abc"), BLAKE2s with a size that is too large. -/
example : ((Blake2.blake2C Blake2.cfgB (Blake2.newC Blake2.cfgB 64) 64).run [[0x61], [0x62, 0x63]]).map (·.take 4) = some [0xba, 0x80, 0xa5, 0x3f] ∧
    (Blake2.blake2C Blake2.cfgS (Blake2.newC Blake2.cfgS 33) 33).run [[0x61]] = none := by decide +kernel
/-- The same `2^61` bytes are a panic for Whirlpool in one piece and fine in two. -/
example (a : Bytes) (h : a.length = 2 ^ 60) : Whirlpool.whirlpoolC.run [a ++ a] = none ∧ (Whirlpool.whirlpoolC.run [a, a]).isSome := by
  constructor
  · refine (C67_whirlpool _).2 fun hs => ?_
    have := hs.1
    simp [slice64, h] at this
  · rw [C67_whirlpool_small [a, a] fun x hx => by
      have : x = a := by simpa using hx
      rw [this, h]; decide]
    rfl
/-- TurboSHAKE with domain byte 0 or 0x80 panics. -/
example : (Sha3.turboC Sha3.f12 168 0).run [] = none ∧ (Sha3.turboC Sha3.f12 136 0x80).run [] = none ∧ ((Sha3.turboC Sha3.f12 168 0x7f).run []).isSome := by
  decide +kernel
/-- A collision-detecting SHA-1 accepts a message on which SHA-1 panics. -/
example (x : Bytes) (h : x.length = 2 ^ 61) : ((Sha1Checked.sha1CheckedC ⟨true, true, true, false⟩).run [x]).isSome := by
  rw [C67_sha1Checked, if_pos rfl, if_pos (by simp [h])]; rfl

/-- FSB-256 panics on `2^61` bytes. -/
example (PI x : Bytes) (hPI : PI.length = 272384) (h : x.length = 2 ^ 61) : (Fsb.fsbC Fsb.fsb256 PI).run [x] = none := by
  rw [C67_fsb (Fsb.fsb256, Spec.Fsb.fsb256) (by simp [fsbSets]) PI hPI, if_neg (by simp [h])]
/-- KangarooTwelve of nothing, read into two buffers. -/
example : ∃ t, (K12.k12C []).run [] = some t ∧ K12.xofC.output t [[0xaa], [0xbb, 0, 0xcc]] = some (Spec.K12.kt128 [] [] 4) := by
  have h := C67_k12 [] (by decide) []
  rw [if_pos (by decide)] at h
  obtain ⟨t, h1, h2⟩ := h
  exact ⟨t, h1, h2 [[0xaa], [0xbb, 0, 0xcc]]⟩
/-- The encoded length of the empty customization string takes one byte, so `2^77 - 1` bytes are accepted and `2^77` are not. -/
example (x y : Bytes) (hx : x.length = 2 ^ 77 - 1) (hy : y.length = 2 ^ 77) :
    ((K12.k12C []).run [x]).isSome ∧ (K12.k12C []).run [y] = none := by
  have e : (Spec.K12.lengthEncode 0).length = 1 := by decide
  have h1 := C67_k12 [] (by decide) [x]
  have h2 := C67_k12 [] (by decide) [y]
  rw [if_pos (by simp [hx, e])] at h1
  rw [if_neg (by simp [hy, e])] at h2
  obtain ⟨t, h, -⟩ := h1
  exact ⟨by rw [h]; rfl, h2⟩
/-- A reader whose position is beyond its buffer, or whose buffer is too short, panics. -/
example : (Ascon.readerC id).readC ⟨⟨1, 0, 0, 0, 0⟩, List.replicate 8 0, 9⟩ [0] = none ∧
    (Ascon.readerC id).readC ⟨⟨1, 0, 0, 0, 0⟩, [0, 0], 4⟩ [0] = none ∧
    ((Ascon.readerC id).output ⟨1, 0, 0, 0, 0⟩ [[7, 7], [7]]) = some [1, 0, 0] := by decide +kernel

end Hashes
