import Verif.Props.Run
import Verif.Proof.Leak.Hashers
/-
C74: what an observer of the memory accesses and branches learns of a whole use of a hasher: `new`, any number of `update`s, `finalize`.
Verif/Leak/Run.lean has the hashers of Verif/Checked/Hashers.lean with observations: the buffering (which part of the input is copied
where, how many blocks are handed on), the block functions, the checks of the counters, the padding and the output.  As the number of
calls is in the open, two uses with as many `update`s are compared.

* MD4, MD5, RIPEMD, SHA-1, SHA-2, SM3, JH, Shabal, BelT, BLAKE2, Skein, SHA-3, SHAKE, Ascon: the lengths of the pieces are all that is shown.
* MD2, Tiger, Whirlpool, Grøstl, Kupyna, GOST R 34.11-94, Streebog, FSB: the message is shown, to the last byte.
-/
namespace Hashes
open Leak

/-- All that is shown are the lengths of the pieces: uses with the same lengths show the same and both return or both panic; and of
uses that return the lengths are shown. -/
def ShowsLengths {τ ω : Type} (c : CoreL τ ω) : Prop :=
  (∀ l l' : List Bytes, l.map List.length = l'.map List.length →
    (c.runL l).obs = (c.runL l').obs ∧ (c.runL l).val.isSome = (c.runL l').val.isSome) ∧
  ∀ l l' : List Bytes, l.length = l'.length → (c.runL l).val.isSome → (c.runL l').val.isSome →
    (c.runL l).obs = (c.runL l').obs → l.map List.length = l'.map List.length

/-- The message is shown: uses on messages within the limits `ok` that show the same are on the same pieces. -/
def ShowsMessage {τ ω : Type} (c : CoreL τ ω) (ok : List Bytes → Prop) : Prop :=
  ∀ l l' : List Bytes, l.length = l'.length → ok l → ok l' → (c.runL l).obs = (c.runL l').obs → l = l'

theorem Leak.Quiet.shows {τ ω : Type} {c : CoreL τ ω} {R : τ → τ → Prop} (h : Quiet c R) : ShowsLengths c :=
  ⟨fun _ _ hl => ⟨(h.run hl).1, by
      have := (h.run hl).2
      revert this
      generalize (c.runL _).val = x
      generalize (c.runL _).val = y
      intro h
      cases h <;> rfl⟩,
    fun _ _ hl hx hy ho => (h.lengths hl).eq hx hy ho⟩

theorem Leak.Telling.shows {τ ω : Type} {c : CoreL τ ω} {I : τ → Prop} (h : Telling c I) {cc : Rs.CoreC τ ω} (hf : Leak.Follows c cc) {ok : List Bytes → Prop}
    (hok : ∀ l, ok l → (cc.run l).isSome) : ShowsMessage c ok :=
  fun l l' hl h1 h2 ho => (h.run hl).eq (by rw [hf.run]; exact hok l h1) (by rw [hf.run]; exact hok l' h2) ho

/-- Forgetting the observations gives the checked hashers of C67; the constants of SHA-2 are aligned. -/
theorem C74_values :
    (∀ l, (Md4.md4L.runL l).val = Md4.md4C.run l) ∧ (∀ l, (Md5.md5L.runL l).val = Md5.md5C.run l) ∧
    (∀ (α : Type) (M : Ripemd.Mod α) l, ((Ripemd.ripemdL M).runL l).val = (Ripemd.ripemdC M).run l) ∧
    (∀ l, (Sha1.sha1L.runL l).val = Sha1.sha1C.run l) ∧
    (∀ a N l, a % 4 = 0 → ((Sha256.sha256L a N).runL l).val = (Sha256.sha256C N).run l) ∧
    (∀ a N l, a % 8 = 0 → ((Sha512.sha512L a N).runL l).val = (Sha512.sha512C N).run l) ∧
    (∀ l, (Sm3.sm3L.runL l).val = Sm3.sm3C.run l) ∧ (∀ p N l, ((Jh.jhL p N).runL l).val = (Jh.jhC N).run l) ∧
    (∀ N l, ((Shabal.shabalL N).runL l).val = (Shabal.shabalC N).run l) ∧ (∀ E l, ((Belt.beltL E).runL l).val = (Belt.beltC E).run l) ∧
    (∀ i N l, ((Blake2.blake2L Blake2.cfgB i N).runL l).val = (Blake2.blake2C Blake2.cfgB i N).run l) ∧
    (∀ i N l, ((Blake2.blake2L Blake2.cfgS i N).runL l).val = (Blake2.blake2C Blake2.cfgS i N).run l) ∧
    (∀ E n N l, 0 < n → ((Skein.skeinL E n N).runL l).val = (Skein.skeinC E n N).run l) ∧
    (∀ f N rate pad l, 0 < rate → ((Sha3.fixedL f N rate pad).runL l).val = (Sha3.fixedC f N rate pad).run l) ∧
    (∀ f rate pad l, 0 < rate → ((Sha3.shakeL f rate pad).runL l).val = (Sha3.shakeC f rate pad).run l) ∧
    (∀ P l, ((Ascon.hash256L P).runL l).val = (Ascon.hash256C P).run l) ∧ (∀ P l, ((Ascon.xof128L P).runL l).val = (Ascon.xof128C P).run l) ∧
    (∀ l, (Md2.md2L.runL l).val = Md2.md2C.run l) ∧ (∀ v l, ((Tiger.tigerL v).runL l).val = (Tiger.tigerC v).run l) ∧
    (∀ l, (Whirlpool.whirlpoolL.runL l).val = Whirlpool.whirlpoolC.run l) ∧
    (∀ g N l, 0 < g.cols → ((Groestl.groestlL g N).runL l).val = (Groestl.groestlC g N).run l) ∧
    (∀ g N l, 0 < g.cols → ((Kupyna.kupynaL g N).runL l).val = (Kupyna.kupynaC g N).run l) ∧
    (∀ sb h0 l, ((Gost94.gost94L sb h0).runL l).val = (Gost94.gost94C sb h0).run l) ∧
    (∀ N l, ((Streebog.streebogL N).runL l).val = (Streebog.streebogC N).run l) ∧
    (∀ P PI l, 0 < P.bs → ((Fsb.fsbL P PI).runL l).val = (Fsb.fsbC P PI).run l) :=
  ⟨Md4.follows.run, Md5.follows.run, fun _ M => (Ripemd.follows M).run, Sha1.follows.run, fun _ N l h => (Sha256.follows h N).run l,
    fun _ N l h => (Sha512.follows h N).run l, Sm3.follows.run, fun p N => (Jh.follows p N).run, fun N => (Shabal.follows N).run, fun E => (Belt.follows E).run,
    fun i N => (Blake2.follows Blake2.cfgB (by decide) i N).run, fun i N => (Blake2.follows Blake2.cfgS (by decide) i N).run,
    fun E n N l h => (Skein.follows E n h N).run l, fun f N r p l h => (Sha3.follows_fixed f N r h p).run l, fun f r p l h => (Sha3.follows_shake f r h p).run l,
    fun P => (Ascon.follows_hash P).run, fun P => (Ascon.follows_xof P).run, Md2.follows.run, fun v => (Tiger.follows v).run, Whirlpool.follows.run,
    fun g N l h => (Groestl.follows g h N).run l, fun g N l h => (Kupyna.follows g h N).run l, fun sb h0 => (Gost94.follows sb h0).run,
    fun N => (Streebog.follows N).run, fun P PI l h => (Fsb.follows P h PI).run l⟩

/-! ### Lengths only -/

/-- C74 (MD4, MD5, SHA-1, RIPEMD). -/
theorem C74_md : ShowsLengths Md4.md4L ∧ ShowsLengths Md5.md5L ∧ ShowsLengths Sha1.sha1L ∧
    ShowsLengths (Ripemd.ripemdL Ripemd.C128.M) ∧ ShowsLengths (Ripemd.ripemdL Ripemd.C160.M) ∧
    ShowsLengths (Ripemd.ripemdL Ripemd.C256.M) ∧ ShowsLengths (Ripemd.ripemdL Ripemd.C320.M) :=
  ⟨Md4.quiet.shows, Md5.quiet.shows, Sha1.quiet.shows, (Ripemd.quiet Ripemd.C128.M fun _ => rfl).shows, (Ripemd.quiet Ripemd.C160.M fun _ => rfl).shows,
    (Ripemd.quiet Ripemd.C256.M fun _ => rfl).shows, (Ripemd.quiet Ripemd.C320.M fun _ => rfl).shows⟩

/-- C74 (SHA-2): the portable code with its constants at the address `a`. -/
theorem C74_sha2 (a N : Nat) : ShowsLengths (Sha256.sha256L a N) ∧ ShowsLengths (Sha512.sha512L a N) := ⟨(Sha256.quiet a N).shows, (Sha512.quiet a N).shows⟩

/-- C74 (SM3). -/
theorem C74_sm3 : ShowsLengths Sm3.sm3L := Sm3.quiet.shows

/-- C74 (JH): accesses relative to the block. -/
theorem C74_jh (p N : Nat) : ShowsLengths (Jh.jhL p N) := (Jh.quiet p N).shows

/-- C74 (Shabal). -/
theorem C74_shabal (N : Nat) : ShowsLengths (Shabal.shabalL N) := (Shabal.quiet N).shows

/-- C74 (BelT): for a block cipher on four words that shows nothing itself. -/
theorem C74_belt (E : Belt.CipherC) (hE : ∀ x k, (E x k).length = 4) : ShowsLengths (Belt.beltL E) := (Belt.quiet hE).shows

/-- C74 (BLAKE2b, BLAKE2s): whatever the core it begins with. -/
theorem C74_blake2 (N : Nat) : (∀ i, ShowsLengths (Blake2.blake2L Blake2.cfgB i N)) ∧ ∀ i, ShowsLengths (Blake2.blake2L Blake2.cfgS i N) :=
  ⟨fun i => (Blake2.quiet Blake2.cfgB (by decide) i N).shows, fun i => (Blake2.quiet Blake2.cfgS (by decide) i N).shows⟩

/-- C74 (Skein): for a block cipher on `n` words that shows nothing itself. -/
theorem C74_skein (E : Skein.CipherC) (n N : Nat) (hn : 0 < n) (hE : ∀ k t b, (E k t b).length = n) : ShowsLengths (Skein.skeinL E n N) :=
  (Skein.quiet hn hE N).shows

/-- C74 (SHA-3, Keccak, SHAKE): for a permutation of 25 words that shows nothing itself. -/
theorem C74_sha3 (f : Sha3.Lanes → Sha3.Lanes) (hf : Sha3.Perm f) (N rate : Nat) (hr : 0 < rate) (pad : Byte) :
    ShowsLengths (Sha3.fixedL f N rate pad) ∧ ShowsLengths (Sha3.shakeL f rate pad) :=
  ⟨(Sha3.quiet_fixed hf N hr pad).shows, (Sha3.quiet_shake hf hr pad).shows⟩

/-- C74 (Ascon-Hash256, Ascon-XOF128): for a permutation that shows nothing itself. -/
theorem C74_ascon (P : Ascon.State → Ascon.State) : ShowsLengths (Ascon.hash256L P) ∧ ShowsLengths (Ascon.xof128L P) :=
  ⟨(Ascon.quiet_hash P).shows, (Ascon.quiet_xof P).shows⟩

/-! ### The message -/

/-- C74 (MD2): every message. -/
theorem C74_md2 : ShowsMessage Md2.md2L fun _ => True := Md2.telling.shows Md2.follows fun l _ => by rw [(C67_md l).2.2]; rfl

/-- C74 (Tiger, Tiger2): every message that does not make it panic. -/
theorem C74_tiger (ver2 : Bool) : ShowsMessage (Tiger.tigerL ver2) fun l => l.flatten.length < 2 ^ 61 :=
  (Tiger.telling ver2).shows (Tiger.follows ver2) fun l hl => by
    cases ver2
    · rw [(C67_tiger l).1, if_pos hl]; rfl
    · rw [(C67_tiger l).2, if_pos hl]; rfl

/-- C74 (Whirlpool): every message in pieces of less than `2^61` bytes. -/
theorem C74_whirlpool : ShowsMessage Whirlpool.whirlpoolL fun l => ∀ x ∈ l, x.length < 2 ^ 61 :=
  Whirlpool.telling.shows Whirlpool.follows fun l hl => by rw [C67_whirlpool_small l hl]; rfl

/-- C74 (Grøstl): every output size and every message that does not make it panic. -/
theorem C74_groestl (N : Nat) :
    (N ≤ 32 → ShowsMessage (Groestl.groestlL Groestl.short N) fun l => l.flatten.length < (2 ^ 64 - 1) * 64 - 8) ∧
    (N ≤ 64 → ShowsMessage (Groestl.groestlL Groestl.long N) fun l => l.flatten.length < (2 ^ 64 - 1) * 128 - 8) := by
  constructor
  · intro hN
    refine (Groestl.telling Groestl.indices_short Groestl.covers_short (by decide) (by decide) N).shows (Groestl.follows _ (by decide) N) fun l hl => ?_
    rw [(C67_groestl N l).1, if_pos hN, if_pos hl]; rfl
  · intro hN
    refine (Groestl.telling Groestl.indices_long Groestl.covers_long (by decide) (by decide) N).shows (Groestl.follows _ (by decide) N) fun l hl => ?_
    rw [(C67_groestl N l).2, if_pos hN, if_pos hl]; rfl

/-- C74 (Kupyna): every output size and every message that does not make it panic. -/
theorem C74_kupyna (N : Nat) :
    (N ≤ 32 → ShowsMessage (Kupyna.kupynaL Kupyna.short N) fun l => l.flatten.length < 2 ^ 64 * 64) ∧
    (32 ≤ N → N ≤ 64 → ShowsMessage (Kupyna.kupynaL Kupyna.long N) fun l => l.flatten.length < 2 ^ 64 * 128) := by
  constructor
  · intro hN
    refine (Kupyna.telling (g := Kupyna.short) (by decide) (by decide) (by decide) (by decide) N).shows (Kupyna.follows _ (by decide) N) fun l hl => ?_
    rw [(C67_kupyna N l).1, if_pos hN, if_pos hl]; rfl
  · intro hN hN'
    refine (Kupyna.telling (g := Kupyna.long) (by decide) (by decide) (by decide) (by decide) N).shows (Kupyna.follows _ (by decide) N) fun l hl => ?_
    rw [(C67_kupyna N l).2, if_pos ⟨hN, hN'⟩, if_pos hl]; rfl

/-- C74 (GOST R 34.11-94): the four S-boxes of the crate, every message in pieces whose length is a `usize`. -/
theorem C74_gost94 (sb : List (List Byte)) (h : sb = Gost94.cryptoProBox ∨ sb = Gost94.s2015Box ∨ sb = Gost94.testBox ∨ sb = Gost94.uaBox) :
    ShowsMessage (Gost94.gost94L sb (List.replicate 32 0)) fun l => ∀ x ∈ l, x.length < 2 ^ 64 := by
  have hb : Gost94.IsBox sb := by
    rcases h with rfl | rfl | rfl | rfl
    · exact C60_gost94_boxes.1
    · exact C60_gost94_boxes.2.1
    · exact C60_gost94_boxes.2.2.1
    · exact C60_gost94_boxes.2.2.2
  exact (Gost94.telling hb List.length_replicate).shows (Gost94.follows sb _) fun l hl => by rw [C67_gost94 l hl sb h]; rfl

/-- C74 (Streebog): both sizes, every message. -/
theorem C74_streebog (N : Nat) (hN : N = 32 ∨ N = 64) : ShowsMessage (Streebog.streebogL N) fun _ => True :=
  (Streebog.telling N).shows (Streebog.follows N) fun l _ => by
    obtain ⟨d, hd, -⟩ := (C67_streebog l).1 N hN
    rw [hd]; rfl

/-- C74 (FSB): all sizes, every table of the size of pi.bin, every message that does not make it panic. -/
theorem C74_fsb (x : Fsb.Params × Spec.Fsb.Params) (hx : x ∈ fsbSets) (PI : Bytes) (hPI : PI.length = 272384) :
    ShowsMessage (Fsb.fsbL x.1 PI) fun l => l.flatten.length < 2 ^ 61 := by
  have hP := (fsbSets_mem hx).1
  have hs : ∀ P ∈ Fsb.all, P.n / P.r * (P.p / 8 + 1) ≤ 272384 ∧ 0 < P.bs := by decide
  exact (Fsb.telling (Fsb.good hP) (hs _ hP).2 (by rw [hPI]; exact (hs _ hP).1)).shows (Fsb.follows _ (hs _ hP).2 PI) fun l hl => by
    rw [C67_fsb x hx PI hPI l, if_pos hl]; rfl

/-! The theorems distinguish: neither group is in the other, and different lengths are shown. -/

theorem ShowsMessage.ne {τ ω : Type} {c : CoreL τ ω} {ok : List Bytes → Prop} (h : ShowsMessage c ok) {l l' : List Bytes} (hl : l.length = l'.length) (h1 : ok l)
    (h2 : ok l') (hn : l ≠ l') : (c.runL l).obs ≠ (c.runL l').obs := fun e => hn (h l l' hl h1 h2 e)

example : ¬ ShowsLengths Md2.md2L := fun h =>
  C74_md2.ne (l := [[0], [1, 2]]) (l' := [[0], [1, 3]]) rfl trivial trivial (by decide) (h.1 [[0], [1, 2]] [[0], [1, 3]] rfl).1
example : ¬ ShowsLengths (Tiger.tigerL true) := fun h =>
  (C74_tiger true).ne (l := [[0]]) (l' := [[1]]) rfl (by decide) (by decide) (by decide) (h.1 [[0]] [[1]] rfl).1
example : ¬ ShowsMessage Sm3.sm3L fun l => l.flatten.length < 2 ^ 61 := fun h =>
  h.ne (l := [[0], [1, 2]]) (l' := [[0], [1, 3]]) rfl (by decide) (by decide) (by decide) (C74_sm3.1 [[0], [1, 2]] [[0], [1, 3]] rfl).1
example : (Sm3.sm3L.runL [[0], [1, 2]]).obs ≠ (Sm3.sm3L.runL [[0, 1], [2]]).obs := fun e =>
  absurd (C74_sm3.2 [[0], [1, 2]] [[0, 1], [2]] rfl (by rw [C74_values.2.2.2.2.2.2.1, C67_sm3]; rfl) (by rw [C74_values.2.2.2.2.2.2.1, C67_sm3]; rfl) e) (by decide)
example : ShowsLengths (Belt.beltL beltBlockC) := C74_belt _ fun _ _ => rfl
example (n N : Nat) (hn : 0 < n) : ShowsLengths (Skein.skeinL (threefishC n) n N) := C74_skein _ n N hn fun _ _ _ => Arr.length_toList _
example : ShowsLengths (Sha3.fixedL Sha3.f24 32 136 0x06) ∧ ShowsLengths (Sha3.shakeL Sha3.f24 136 0x1f) := 
  ⟨(C74_sha3 _ Sha3.perm24 32 136 (by decide) _).1, (C74_sha3 _ Sha3.perm24 32 136 (by decide) _).2⟩
example : 500 < (Sm3.sm3L.runL [[0], [1, 2]]).obs.length := by decide +kernel

end Hashes
