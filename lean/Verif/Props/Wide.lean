import Verif.Props.Reduction
import Verif.Props.Collide
import Verif.Props.Perm
import Verif.Proof.Wide.Chain
import Verif.Proof.Wide.Chain2
import Verif.Proof.Wide.Sponge
/- C66: collisions of the hashes whose digest is less than the whole chaining value. The digest is an output function of the last
chaining value, so a digest collision is a collision of the output function at two last chaining values, or (when these are equal)
among the calls of the compression function; for sponges, where the step function is a permutation of the state and so has trivial
collisions for every block, the second case is instead an inner collision: different block sequences after which the part of the
state that no block touches is the same. -/
namespace Hashes
open Spec
set_option exponentiation.threshold 600

/-- The digest of every message `m` with `ok m` is `out` of the iteration of `f` from `iv` over `input m`, and two different such
messages with the same digest show a collision of `f` among the calls made, or of `out` at the last values. -/
structure WideOf {σ τ β ω : Type} (c : Core σ ω) (f : τ → β → τ) (iv : τ) (out : τ → ω) (input : Bytes → List β)
    (ok : Bytes → Prop) : Prop where
  digest : ∀ m, ok m → c.finish (c.update c.new m) = out ((input m).foldl f iv)
  collision : ∀ m m', ok m → ok m' → m ≠ m' → c.finish (c.update c.new m) = c.finish (c.update c.new m') →
    WideCollide f iv out (input m) (input m')

theorem WideOf.of_suffix {σ τ β ω : Type} {c : Core σ ω} {f : τ → β → τ} {iv : τ} {out : τ → ω} {input : Bytes → List β}
    {ok : Bytes → Prop} (hd : ∀ m, ok m → c.finish (c.update c.new m) = out ((input m).foldl f iv))
    (hs : ∀ m m', ok m → ok m' → m ≠ m' → ¬ input m <:+ input m') : WideOf c f iv out input ok where
  digest := hd
  collision := fun m m' hm hm' hne h => by
    rw [hd m hm, hd m' hm'] at h
    exact wide_collide (hs m m' hm hm' hne) (hs m' m hm' hm hne.symm) h

/-! ### SHA-2 -/

/-- C66 (SHA-224 and SHA-256). -/
theorem C66_sha256 {n : Nat} {c : Core Sha256.State Bytes} (hc : Sha256.varCore.ct n = some c) :
    WideOf c (fun s b => Sha256.compressSoft s [b]) c.init.state (fun s => (bytesOfWordsBE s.toList).take n)
      (fun m => chunks 64 (padBE 64 8 m)) (fun m => 8 * m.length < 2 ^ 64) := by
  obtain ⟨-, s, hs, rfl⟩ := VarCore.ct_inv hc
  have h0 : s = ⟨s.state, 0⟩ := by
    change Sha256.new n = some s at hs
    unfold Sha256.new at hs
    split at hs <;> cases hs <;> rfl
  rw [h0]
  refine .of_suffix (fun m _ => ?_) fun m m' hm hm' hne => MerkleDamgard.sha256.suffix m m' hm hm' hne
  change Core.digest _ m = _
  rw [Sha256.digest_chain]
  simp only [Sha256.compressSoft_eq, List.foldl_cons, List.foldl_nil]
  rfl

/-- C66 (SHA-384, SHA-512, SHA-512/224 and SHA-512/256). -/
theorem C66_sha512 {n : Nat} {c : Core Sha512.State Bytes} (hc : Sha512.varCore.ct n = some c) :
    WideOf c (fun s b => Sha512.compressSoft s [b]) c.init.state (fun s => (bytesOfWordsBE s.toList).take n)
      (fun m => chunks 128 (padBE 128 16 m)) (fun m => 8 * m.length < 2 ^ 128) := by
  obtain ⟨-, s, hs, rfl⟩ := VarCore.ct_inv hc
  have h0 : s = ⟨s.state, 0⟩ := by
    change Sha512.new n = some s at hs
    unfold Sha512.new at hs
    split at hs <;> cases hs <;> rfl
  rw [h0]
  refine .of_suffix (fun m _ => ?_) fun m m' hm hm' hne => MerkleDamgard.sha512.suffix m m' hm hm' hne
  change Core.digest _ m = _
  rw [Sha512.digest_chain]
  simp only [Sha512.compressSoft_eq, List.foldl_cons, List.foldl_nil]
  rfl

/-! ### Groestl, Kupyna, JH, Shabal, Streebog -/

/-- C66 (Groestl, 512-bit state, every output size the code accepts). -/
theorem C66_groestl_short {N : Nat} {c : Core (Groestl.State Groestl.short.cols) Bytes} (hc : Groestl.core Groestl.short N = some c) :
    WideOf c (Groestl.compress Groestl.short) c.init.state (Groestl.outWide Groestl.short N)
      (fun m => chunks 64 (Groestl.padMsg 64 m)) (fun m => Groestl.count 64 m < 2 ^ 64) := by
  obtain ⟨-, s, hs, rfl⟩ := VarCore.ct_inv hc
  have h0 : s = ⟨Groestl.init Groestl.short N, 0⟩ := by
    change Groestl.new Groestl.short N = some s at hs
    unfold Groestl.new at hs
    split at hs
    · cases hs
    · exact (Option.some.inj hs).symm
  subst h0
  exact .of_suffix (fun m _ => Groestl.digest_wide (g := Groestl.short) (by decide) Groestl.count64 m)
    fun m m' hm hm' hne => Groestl.padMsg_suffix (by decide) hm hm' hne

/-- C66 (Groestl, 1024-bit state). -/
theorem C66_groestl_long {N : Nat} {c : Core (Groestl.State Groestl.long.cols) Bytes} (hc : Groestl.core Groestl.long N = some c) :
    WideOf c (Groestl.compress Groestl.long) c.init.state (Groestl.outWide Groestl.long N)
      (fun m => chunks 128 (Groestl.padMsg 128 m)) (fun m => Groestl.count 128 m < 2 ^ 64) := by
  obtain ⟨-, s, hs, rfl⟩ := VarCore.ct_inv hc
  have h0 : s = ⟨Groestl.init Groestl.long N, 0⟩ := by
    change Groestl.new Groestl.long N = some s at hs
    unfold Groestl.new at hs
    split at hs
    · cases hs
    · exact (Option.some.inj hs).symm
  subst h0
  exact .of_suffix (fun m _ => Groestl.digest_wide (g := Groestl.long) (by decide) Groestl.count128 m)
    fun m m' hm hm' hne => Groestl.padMsg_suffix (by decide) hm hm' hne

theorem Kupyna.pad_suffix {bs : Nat} (hb : 12 ≤ bs) {m m' : Bytes} (hm : m.length / bs < 2 ^ 64) (hm' : m'.length / bs < 2 ^ 64)
    (hbs : bs ≤ 2 ^ 20) (hne : m ≠ m') :
    ¬ chunks bs (mdPad bs 0x80 (leBytes 12 (8 * m.length)) m) <:+ chunks bs (mdPad bs 0x80 (leBytes 12 (8 * m'.length)) m') := by
  refine mdPad_suffix (sl := 12) (by omega) (by decide) hb (by decide) (fun n => leBytes 12 (8 * n)) (fun n => by simp) (fun e => ?_) hne
  have small : ∀ m : Bytes, m.length / bs < 2 ^ 64 → 8 * m.length < 256 ^ 12 := fun m hm => by
    have h1 := Nat.div_add_mod m.length bs
    have h2 := Nat.mod_lt m.length (show bs > 0 by omega)
    have h3 : bs * (m.length / bs) ≤ bs * (2 ^ 64 - 1) := Nat.mul_le_mul_left _ (by omega)
    omega
  have := leBytes_inj e
  rw [Nat.mod_eq_of_lt (small m hm), Nat.mod_eq_of_lt (small m' hm')] at this
  omega

/-- C66 (Kupyna, 512-bit state, every output size the code accepts). -/
theorem C66_kupyna_short {N : Nat} {c : Core (Kupyna.State Kupyna.short.cols) Bytes} (hc : Kupyna.core Kupyna.short N = some c) :
    WideOf c (Kupyna.compress Kupyna.short) c.init.state (Kupyna.outWide Kupyna.short N)
      (fun m => chunks 64 (mdPad 64 0x80 (leBytes 12 (8 * m.length)) m)) (fun m => m.length / 64 < 2 ^ 64) := by
  obtain ⟨-, s, hs, rfl⟩ := VarCore.ct_inv hc
  have h0 : s = Kupyna.init Kupyna.short := by
    change Kupyna.new Kupyna.short N = some s at hs
    unfold Kupyna.new at hs
    split at hs
    · cases hs
    · exact (Option.some.inj hs).symm
  subst h0
  exact .of_suffix (fun m hm => Kupyna.digest_wide (g := Kupyna.short) (by decide) (by decide) m hm)
    fun m m' hm hm' hne => Kupyna.pad_suffix (by decide) hm hm' (by decide) hne

/-- C66 (Kupyna, 1024-bit state). -/
theorem C66_kupyna_long {N : Nat} {c : Core (Kupyna.State Kupyna.long.cols) Bytes} (hc : Kupyna.core Kupyna.long N = some c) :
    WideOf c (Kupyna.compress Kupyna.long) c.init.state (Kupyna.outWide Kupyna.long N)
      (fun m => chunks 128 (mdPad 128 0x80 (leBytes 12 (8 * m.length)) m)) (fun m => m.length / 128 < 2 ^ 64) := by
  obtain ⟨-, s, hs, rfl⟩ := VarCore.ct_inv hc
  have h0 : s = Kupyna.init Kupyna.long := by
    change Kupyna.new Kupyna.long N = some s at hs
    unfold Kupyna.new at hs
    split at hs
    · cases hs
    · exact (Option.some.inj hs).symm
  subst h0
  exact .of_suffix (fun m hm => Kupyna.digest_wide (g := Kupyna.long) (by decide) (by decide) m hm)
    fun m m' hm hm' hne => Kupyna.pad_suffix (by decide) hm hm' (by decide) hne

/-- C66 (JH-224, -256, -384, -512). -/
theorem C66_jh {N : Nat} {c : Core Jh.State Bytes} (hc : Jh.core N = some c) :
    WideOf c Jh.f8 c.init.state (Jh.outWide N) (fun m => chunks 64 (Spec.Jh.pad m)) (fun m => 8 * m.length < 2 ^ 64) := by
  obtain ⟨-, s, hs, rfl⟩ := VarCore.ct_inv hc
  exact .of_suffix (fun m hm => Jh.digest_wide hs m hm) fun m m' hm hm' hne => Jh.pad_suffix' (by omega) (by omega) hne

/-- C66 (Shabal-192, -224, -256, -384, -512). Shabal has no length field: that the same blocks cannot occur behind a return to the
initial value rests on the counter `w`. -/
theorem C66_shabal {N : Nat} {c : Core Shabal.State Bytes} (hc : Shabal.core N = some c) :
    WideOf c Shabal.wStep c.init (Shabal.outWide N) shabalInput (fun m => m.length / 64 < 2 ^ 64) := by
  obtain ⟨-, s, -, rfl⟩ := VarCore.ct_inv hc
  refine ⟨fun m _ => Shabal.digest_wide s m, fun m m' hm hm' hne h => Shabal.wide hm hm' hne ?_⟩
  exact ((Shabal.digest_wide (N := N) s m).symm.trans h).trans (Shabal.digest_wide (N := N) s m')

/-- C66 (Streebog-256 and -512). -/
theorem C66_streebog {N : Nat} {c : Core Streebog.State Bytes} (hc : Streebog.core N = some c) :
    WideOf c Streebog.gStep c.init.h (Streebog.outWide N) streebogInput (fun m => 8 * m.length < 2 ^ 448) := by
  obtain ⟨-, s, hs, rfl⟩ := VarCore.ct_inv hc
  exact .of_suffix (fun m hm => Streebog.digest_wide hs m hm) fun m m' hm hm' hne => Streebog.input_suffix hm hm' hne

/-! ### BLAKE2 and Skein -/

/-- C66 (BLAKE2b with any output size and personalization, no key). -/
theorem C66_blake2b {persona : Bytes} {n : Nat} {s : Blake2.State 64} (hs : Blake2.newWithParams Blake2.cfgB [] persona 0 n = some s) :
    WideOf ((Blake2.varCore Blake2.cfgB).ctWith n s) (Blake2.fStep Blake2.cfgB) s.h (fun h => (bytesOfWordsLE (Blake2.hl h)).take n)
      (blake2Input 128) (fun m => m.length < 2 ^ 64) :=
  .of_suffix (fun m hm => Blake2.digest_chain (n := 8) Blake2.goodB rfl hs m fun k hk => Blake2.countB (by omega))
    fun _ _ _ _ hne => Blake2.input_suffix hne

/-- C66 (BLAKE2s). -/
theorem C66_blake2s {persona : Bytes} {n : Nat} {s : Blake2.State 32} (hs : Blake2.newWithParams Blake2.cfgS [] persona 0 n = some s) :
    WideOf ((Blake2.varCore Blake2.cfgS).ctWith n s) (Blake2.fStep Blake2.cfgS) s.h (fun h => (bytesOfWordsLE (Blake2.hl h)).take n)
      (blake2Input 64) (fun _ => True) :=
  .of_suffix (fun m _ => Blake2.digest_chain (n := 4) Blake2.goodS rfl hs m fun k _ => Blake2.countS k)
    fun _ _ _ _ hne => Blake2.input_suffix hne

/-- C66 (Skein-256, -512, -1024 with any output size `N`, for every cipher `E`). -/
theorem C66_skein {n : Nat} (E : Skein.Cipher n) (hn : 4 ≤ n) (N : Nat) :
    WideOf (Skein.core E N) (Skein.uStep E) (Skein.init E N).x (Skein.outWide E N) (skeinMessage (8 * n)) (fun m => m.length < 2 ^ 64) :=
  .of_suffix (fun m hm => Skein.digest_wide E hn N m hm) fun _ _ hm hm' hne => Skein.message_suffix (by omega) hm hm' hne

/-! ### Sponges -/

theorem Sha3.lanes_fold (l : List Bytes) : (l.foldl (absorbBlock f24) zero).length = 25 := by
  have : ∀ (l : List Bytes) (s : Lanes), s.length = 25 → (l.foldl (absorbBlock f24) s).length = 25 := by
    intro l
    induction l with
    | nil => exact fun s h => h
    | cons b l ih => exact fun s h => ih _ (perm24 _ (by rw [length_xorLanes, h]))
  exact this l zero rfl

theorem Sha3.length_fold (n : Nat) (hn : n ≤ 200) (l : List Bytes) : (asBytes n (l.foldl (absorbBlock f24) zero)).length = n := by
  rw [asBytes_eq, List.length_take, length_bytes (lanes_fold l)]
  omega

open Sha3 in
/-- C66 (SHA-3 and Keccak of fixed length: `(output size, rate)` as in the code, separation bytes `0x06` and `0x01`). The digest is
the start of the last state, and two different pairs of message and separation byte with the same digest show an inner collision,
or two different last states with the same start. -/
theorem C66_sha3 (n rate : Nat) (hr : (n, rate) ∈ [(28, 144), (32, 136), (48, 104), (64, 72), (200, 136)]) (D D' : Byte)
    (hD : D ∈ [0x06, 0x01]) (hD' : D' ∈ [0x06, 0x01]) (m m' : Bytes) :
    let c := fixed f24 n rate D
    let c' := fixed f24 n rate D'
    c.finish (c.update c.new m) = asBytes n ((chunks rate (spongePad rate D m)).foldl (absorbBlock f24) zero) ∧
    ((m, D) ≠ (m', D') → c.finish (c.update c.new m) = c'.finish (c'.update c'.new m') →
      SpongeCollide (absorbBlock f24) zero (capacity rate) (asBytes n) (chunks rate (spongePad rate D m))
        (chunks rate (spongePad rate D' m'))) := by
  have r : 0 < rate ∧ 8 ∣ rate ∧ rate ≤ 200 := by
    simp only [List.mem_cons, Prod.mk.injEq, List.not_mem_nil, or_false] at hr
    omega
  have d : ∀ D : Byte, D ∈ [0x06, 0x01] → D.toNat < 128 ∧ D ≠ 0 := by
    intro D h
    simp only [List.mem_cons, List.not_mem_nil, or_false] at h
    rcases h with rfl | rfl <;> decide
  refine ⟨fixed_wide perm24 r.1 (d D hD).1 n m, fun hne h => ?_⟩
  refine collide perm24 inj24 r.1 r.2.1 r.2.2 (d D hD) (d D' hD') hne ?_
  exact ((fixed_wide perm24 r.1 (d D hD).1 n m).symm.trans h).trans (fixed_wide perm24 r.1 (d D' hD').1 n m')

open Sha3 in
/-- C66 (`Keccak256Full`, whose digest is the whole state): always an inner collision. -/
theorem C66_keccak256Full (m m' : Bytes) (hne : m ≠ m')
    (h : keccak256Full.finish (keccak256Full.update keccak256Full.new m) =
      keccak256Full.finish (keccak256Full.update keccak256Full.new m')) :
    InnerCollide (absorbBlock f24) zero (capacity 136) (chunks 136 (spongePad 136 0x01 m)) (chunks 136 (spongePad 136 0x01 m')) := by
  have hne' : (m, (0x01 : Byte)) ≠ (m', 0x01) := fun e => hne (Prod.mk.inj e).1
  rcases (C66_sha3 200 136 (by simp) 0x01 0x01 (by simp) (by simp) m m').2 hne' h with hc | ⟨h1, h2⟩
  · exact hc
  · exfalso
    rw [asBytes_eq, asBytes_eq, List.take_of_length_le (by rw [length_bytes (lanes_fold _)]),
      List.take_of_length_le (by rw [length_bytes (lanes_fold _)])] at h2
    exact h1 (bytesOfWordsLE_inj (by decide) (by rw [lanes_fold, lanes_fold]) h2)

open Sha3 in
/-- C66 (SHAKE128 and SHAKE256, `L` bytes read). -/
theorem C66_shake (rate : Nat) (hr : rate = 168 ∨ rate = 136) (m m' : Bytes) (hne : m ≠ m') (L : Nat)
    (h : let c := shake f24 rate 0x1f
      ((xof f24 rate).read ((xof f24 rate).reader (c.finish (c.update c.new m))) L).1 =
        ((xof f24 rate).read ((xof f24 rate).reader (c.finish (c.update c.new m'))) L).1) :
    SpongeCollide (absorbBlock f24) zero (capacity rate) (fun s => ((xof f24 rate).read ((xof f24 rate).reader s) L).1)
      (chunks rate (spongePad rate 0x1f m)) (chunks rate (spongePad rate 0x1f m')) := by
  have h0 : 0 < rate := by omega
  refine collide perm24 inj24 h0 (by omega) (by omega) (by decide) (by decide) (fun e => hne (Prod.mk.inj e).1) ?_
  have e := fun m => shake_wide perm24 h0 (D := 0x1f) (by decide) m
  simp only [Core.digest] at e h ⊢
  rw [← e, ← e]
  exact h

open Sha3 in
/-- C66 (TurboSHAKE128 and TurboSHAKE256, `L` bytes read; also with different domain separation bytes). -/
theorem C66_turbo (rate : Nat) (hr : rate = 168 ∨ rate = 136) (d d' : Byte) {i i' : Turbo} (hi : Turbo.new d = some i)
    (hi' : Turbo.new d' = some i') (m m' : Bytes) (hne : (m, d) ≠ (m', d')) (L : Nat)
    (h : let c := turbo f12 rate i
      let c' := turbo f12 rate i'
      ((xof f12 rate).read ((xof f12 rate).reader (c.finish (c.update c.new m))) L).1 =
        ((xof f12 rate).read ((xof f12 rate).reader (c'.finish (c'.update c'.new m'))) L).1) :
    SpongeCollide (absorbBlock f12) zero (capacity rate) (fun s => ((xof f12 rate).read ((xof f12 rate).reader s) L).1)
      (chunks rate (spongePad rate d m)) (chunks rate (spongePad rate d' m')) := by
  have h0 : 0 < rate := by omega
  have dd : ∀ {d : Byte} {i : Turbo}, Turbo.new d = some i → d.toNat < 128 ∧ d ≠ 0 := fun {d i} hi => by
    refine ⟨(turbo_new hi).2, ?_⟩
    rintro rfl
    cases hi
  refine collide perm12 inj12 h0 (by omega) (by omega) (dd hi) (dd hi') hne ?_
  have e := fun m => turbo_wide perm12 h0 hi m
  have e' := fun m => turbo_wide perm12 h0 hi' m
  simp only [Core.digest] at e e' h ⊢
  rw [← e, ← e']
  exact h

open Sha3 in
/-- C66 (cSHAKE128 and cSHAKE256, `L` bytes read). Two different triples of function name, customization string and message. -/
theorem C66_cshake (rate : Nat) (hr : rate = 168 ∨ rate = 136) (N S m N' S' m' : Bytes) (hN : 8 * N.length < 2 ^ 64)
    (hS : 8 * S.length < 2 ^ 64) (hN' : 8 * N'.length < 2 ^ 64) (hS' : 8 * S'.length < 2 ^ 64) (hne : (N, S, m) ≠ (N', S', m')) (L : Nat)
    (h : let c := cshake f24 rate N S
      let c' := cshake f24 rate N' S'
      ((xof f24 rate).read ((xof f24 rate).reader (c.finish (c.update c.new m))) L).1 =
        ((xof f24 rate).read ((xof f24 rate).reader (c'.finish (c'.update c'.new m'))) L).1) :
    let x := cshakeBytes rate N S m
    let y := cshakeBytes rate N' S' m'
    SpongeCollide (absorbBlock f24) zero (capacity rate) (fun s => ((xof f24 rate).read ((xof f24 rate).reader s) L).1)
      (chunks rate (spongePad rate x.2 x.1)) (chunks rate (spongePad rate y.2 y.1)) := by
  have h0 : 0 < rate := by omega
  have hr' : rate < 2 ^ 64 := by omega
  have dd : ∀ N S m, (cshakeBytes rate N S m).2.toNat < 128 ∧ (cshakeBytes rate N S m).2 ≠ 0 := fun N S m => by
    unfold cshakeBytes
    split <;> (dsimp only; exact ⟨by decide, by decide⟩)
  intro x y
  refine collide (m := x.1) (m' := y.1) perm24 inj24 h0 (by omega) (by omega) (dd N S m) (dd N' S' m')
    (fun e => hne (cshakeBytes_inj hr' hN hS hN' hS' e)) ?_
  have e := cshake_wide perm24 h0 hr' hN hS m
  have e' := cshake_wide perm24 h0 hr' hN' hS' m'
  simp only [Core.digest] at e e' h ⊢
  rw [show _ = _ from e, show _ = _ from e'] at h
  exact h

/-! ### C51 for the functions themselves -/

/-- The functions of FIPS 202, SP 800-185 and the original Keccak that a sponge of one rate serves. `cshake [] []` is not among them:
it is SHAKE. -/
inductive SpongeFn where
  | keccak | sha3 | shake
  | cshake (N S : Bytes)

/-- The lengths cSHAKE's code can encode, and not both strings empty. -/
def SpongeFn.Valid : SpongeFn → Prop
  | .cshake N S => ¬ (N = [] ∧ S = []) ∧ 8 * N.length < 2 ^ 64 ∧ 8 * S.length < 2 ^ 64
  | _ => True

/-- The blocks that the standards have the function absorb. -/
def SpongeFn.absorbed (rate : Nat) (m : Bytes) : SpongeFn → List Bytes
  | .keccak => chunks rate (spongePad rate 0x01 m)
  | .sha3 => chunks rate (spongePad rate 0x06 m)
  | .shake => chunks rate (spongePad rate 0x1f m)
  | .cshake N S => chunks rate (spongePad rate 0x04 (Sha3.paddedPrefix rate N S ++ m))

open Sha3 in
/-- C51 (the functions). Each hasher's last state is that of absorbing the function's blocks, whatever the permutation, and these
blocks determine the function — cSHAKE's name and customization string included — and the message. -/
theorem C51_functions {f : Lanes → Lanes} (hf : Perm f) (rate : Nat) (h0 : 0 < rate) (hr : rate < 2 ^ 64) :
    (∀ n m, let c := fixed f n rate 0x01
      c.finish (c.update c.new m) = asBytes n ((SpongeFn.keccak.absorbed rate m).foldl (absorbBlock f) zero)) ∧
    (∀ n m, let c := fixed f n rate 0x06
      c.finish (c.update c.new m) = asBytes n ((SpongeFn.sha3.absorbed rate m).foldl (absorbBlock f) zero)) ∧
    (∀ m, let c := shake f rate 0x1f
      c.finish (c.update c.new m) = (SpongeFn.shake.absorbed rate m).foldl (absorbBlock f) zero) ∧
    (∀ m, let c := cshake f rate [] []
      c.finish (c.update c.new m) = (SpongeFn.shake.absorbed rate m).foldl (absorbBlock f) zero) ∧
    (∀ N S m, (SpongeFn.cshake N S).Valid → let c := cshake f rate N S
      c.finish (c.update c.new m) = ((SpongeFn.cshake N S).absorbed rate m).foldl (absorbBlock f) zero) ∧
    (∀ (F F' : SpongeFn) (m m' : Bytes), F.Valid → F'.Valid → F.absorbed rate m = F'.absorbed rate m' → F = F' ∧ m = m') := by
  refine ⟨fun n m => fixed_wide hf h0 (by decide) n m, fun n m => fixed_wide hf h0 (by decide) n m,
    fun m => shake_wide hf h0 (by decide) m, fun m => ?_, fun N S m hv => ?_, ?_⟩
  · exact cshake_wide hf h0 hr (N := []) (S := []) (by decide) (by decide) m
  · have e := cshake_wide hf h0 hr hv.2.1 hv.2.2 m
    simp only [cshakeBytes, if_neg hv.1] at e
    exact e
  · have key : ∀ {D D' : Byte} {m m' : Bytes}, D.toNat < 128 ∧ D ≠ 0 → D'.toNat < 128 ∧ D' ≠ 0 →
        chunks rate (spongePad rate D m) = chunks rate (spongePad rate D' m') → m = m' ∧ D = D' := by
      intro D D' m m' hD hD' h
      have h := congrArg List.flatten h
      rw [chunks_flatten (length_spongePad h0 hD.1 m), chunks_flatten (length_spongePad h0 hD'.1 m')] at h
      exact spongePad_inj hD hD' h
    intro F F' m m' hF hF' h
    cases F <;> cases F' <;> have k := key (by decide) (by decide) h <;>
      first
      | exact ⟨rfl, k.1⟩
      | exact absurd k.2 (by decide)
      | skip
    case cshake.cshake N S N' S' =>
      have e : cshakeBytes rate N S m = cshakeBytes rate N' S' m' := by
        simp only [cshakeBytes, if_neg hF.1, if_neg hF'.1, k.1]
      have e := cshakeBytes_inj hr hF.2.1 hF.2.2 hF'.2.1 hF'.2.2 e
      simp only [Prod.mk.injEq] at e
      exact ⟨by rw [e.1, e.2.1], e.2.2⟩

/-- Concrete case: cSHAKE128 with the name "A" is a valid function of rate 168, and the empty message gives two blocks. -/
example : (SpongeFn.cshake [0x41] []).Valid ∧ ((SpongeFn.cshake [0x41] []).absorbed 168 []).length = 2 :=
  ⟨⟨by decide, by decide, by decide⟩, by decide +kernel⟩

/-- C66 (Ascon-Hash256, for every injective `P`; C62 proves that the standard's permutation is one). -/
theorem C66_ascon_hash (P : V5 W64 → V5 W64) (hP : ∀ s t, P s = P t → s = t) (m m' : Bytes) :
    let c := Ascon.hash256 P
    c.finish (c.update c.new m) =
      (Spec.Ascon.squeeze P 4 ((chunks 8 (mdPad 8 0x01 [] m)).foldl (Ascon.absorbBlock P) Ascon.ivHash)).take 32 ∧
    (m ≠ m' → c.finish (c.update c.new m) = c.finish (c.update c.new m') →
      SpongeCollide (Ascon.absorbBlock P) Ascon.ivHash Ascon.capacity (fun s => (Spec.Ascon.squeeze P 4 s).take 32)
        (chunks 8 (mdPad 8 0x01 [] m)) (chunks 8 (mdPad 8 0x01 [] m'))) :=
  ⟨Ascon.hash_digest_eq P m, fun hne h => Ascon.collide hP Ascon.ivHash hne
    (((Ascon.hash_digest_eq P m).symm.trans h).trans (Ascon.hash_digest_eq P m'))⟩

/-- C66 (Ascon-XOF128, `L` bytes read). -/
theorem C66_ascon_xof (P : V5 W64 → V5 W64) (hP : ∀ s t, P s = P t → s = t) (m m' : Bytes) (hne : m ≠ m') (L : Nat)
    (h : let c := Ascon.xof128 P
      ((Ascon.reader P).read ((Ascon.reader P).reader (c.finish (c.update c.new m))) L).1 =
        ((Ascon.reader P).read ((Ascon.reader P).reader (c.finish (c.update c.new m'))) L).1) :
    SpongeCollide (Ascon.absorbBlock P) Ascon.ivXof Ascon.capacity
      (fun s => ((Ascon.reader P).read ((Ascon.reader P).reader s) L).1)
      (chunks 8 (mdPad 8 0x01 [] m)) (chunks 8 (mdPad 8 0x01 [] m')) := by
  refine Ascon.collide hP Ascon.ivXof hne ?_
  have e := fun m => (Ascon.xof_digest_eq P m : _ = Spec.Ascon.absorb P Ascon.ivXof m)
  simp only [Core.digest] at e h ⊢
  rw [e, e] at h
  exact h

/-! ### Concrete cases: the hypotheses can be met -/

/-- Two messages of 29 bytes with the same SHA-224 digest exist. -/
example : ∃ c m m', Sha256.varCore.ct 28 = some c ∧ 8 * m.length < 2 ^ 64 ∧ 8 * m'.length < 2 ^ 64 ∧ m ≠ m' ∧
    c.finish (c.update c.new m) = c.finish (c.update c.new m') := by
  obtain ⟨c, hc⟩ : ∃ c, Sha256.varCore.ct 28 = some c := ⟨_, rfl⟩
  obtain ⟨m, m', h1, h2, h3, h4⟩ := collision_exists (fun m => c.finish (c.update c.new m)) 28 (fun m hm => by
    simp only [(C66_sha256 hc).digest m (by omega), List.length_take, length_bytesOfWordsBE]; rfl)
  exact ⟨c, m, m', hc, by omega, by omega, h1, h4⟩

/-- … and with the same JH-256 digest. -/
example : ∃ c m m', Jh.core 32 = some c ∧ 8 * m.length < 2 ^ 64 ∧ 8 * m'.length < 2 ^ 64 ∧ m ≠ m' ∧
    c.finish (c.update c.new m) = c.finish (c.update c.new m') := by
  obtain ⟨c, hc⟩ : ∃ c, Jh.core 32 = some c := ⟨_, rfl⟩
  obtain ⟨m, m', h1, h2, h3, h4⟩ := collision_exists (fun m => c.finish (c.update c.new m)) 32 (fun m hm => by
    simp only [(C66_jh hc).digest m (by omega), Jh.outWide, truncate, List.length_drop, length_bytesOfWordsLE]; rfl)
  exact ⟨c, m, m', hc, by omega, by omega, h1, h4⟩

/-- … and with the same SHA3-256 digest. -/
example : ∃ m m', m ≠ m' ∧ Sha3.sha3_256.finish (Sha3.sha3_256.update Sha3.sha3_256.new m) =
    Sha3.sha3_256.finish (Sha3.sha3_256.update Sha3.sha3_256.new m') := by
  obtain ⟨m, m', h1, h2, h3, h4⟩ := collision_exists (fun m => Sha3.sha3_256.finish (Sha3.sha3_256.update Sha3.sha3_256.new m)) 32
    (fun m hm => by
      have := (C66_sha3 32 136 (by simp) 0x06 0x06 (by simp) (by simp) m m).1
      exact (congrArg List.length this).trans (Sha3.length_fold 32 (by decide) _))
  exact ⟨m, m', h1, h4⟩

/-- The second case occurs: different 512-bit chaining values with the same 256-bit output of Streebog-256. -/
example : OutCollide (Streebog.outWide 32) ⟨0, 0, 0, 0, 0, 0, 0, 0⟩ ⟨1, 0, 0, 0, 0, 0, 0, 0⟩ :=
  ⟨by decide, by decide +kernel⟩

/-- Why sponges are stated with inner collisions: whatever the permutation, the step collides for two states that agree in the words
that no block touches, with blocks chosen for it. -/
example (P : V5 W64 → V5 W64) : Ascon.absorbBlock P ⟨1, 5, 6, 7, 8⟩ [3, 0, 0, 0, 0, 0, 0, 0] =
      Ascon.absorbBlock P ⟨0, 5, 6, 7, 8⟩ [2, 0, 0, 0, 0, 0, 0, 0] ∧
    Ascon.capacity ⟨1, 5, 6, 7, 8⟩ = Ascon.capacity ⟨0, 5, 6, 7, 8⟩ := by
  refine ⟨congrArg P ?_, rfl⟩
  decide +kernel

/-- Blocks of padded messages. -/
example : spongePad 8 0x06 [1, 2] = [1, 2, 6, 0, 0, 0, 0, 0x80] ∧ spongePad 8 0x06 [1, 2, 3, 4, 5, 6, 7] = [1, 2, 3, 4, 5, 6, 7, 0x86] ∧
    spongePad 4 0x1f [1, 2, 3, 4] = [1, 2, 3, 4, 0x1f, 0, 0, 0x80] ∧
    shabalInput [] = [(0x80 :: List.replicate 63 0, true)] ∧ (shabalInput (List.replicate 64 9)).map (·.2) = [false, true] ∧
    Groestl.count 64 (List.replicate 55 0) = 1 ∧ Groestl.count 64 (List.replicate 56 0) = 2 := by decide +kernel

end Hashes
