import Verif.Proof.Perm.Arx
import Verif.Proof.Perm.Sponge
import Verif.Proof.Perm.Misc
import Verif.Proof.Perm.Bytes
import Verif.Proof.Perm.Close
import Verif.Proof.Md4
import Verif.Proof.Md5
import Verif.Proof.Sha1
import Verif.Proof.Sha256
import Verif.Proof.Sha512
import Verif.Proof.Sm3
import Verif.Proof.Ripemd
import Verif.Proof.Tiger
import Verif.Base.Simd
import Verif.Proof.KeccakP
import Verif.Proof.Skein
import Verif.Model.Keccak
import Verif.Model.Ascon
/-
C62. The inner transformations of the modelled code are permutations, as the designs assume: nothing of the state is lost
inside a compression. Stated on the modelled functions with Mathlib's `Function.Bijective` and `Set.BijOn` only.
-/
namespace Hashes
open Function Perm

/-! ### Davies–Meyer designs: the compression function without its feed-forward, for every block -/

theorem C62_md4 (b : Bytes) : Bijective fun s : V4 W32 => (Md4.compress s b).zip (· - ·) s := by
  simp only [Md4.compress_eq, Spec.Md4.compress, zip4_cancel]
  exact bij (md4_steps _ 48)

theorem C62_md5 (b : Bytes) : Bijective fun s : V4 W32 => (Md5.compressBlock s b).zip (· - ·) s := by
  simp only [Md5.compressBlock_eq, Spec.Md5.compress, zip4_cancel]
  exact bij (md5_steps _ 64)

theorem C62_sha1 (b : Bytes) : Bijective fun s : V5 W32 => (Sha1.compressSoft s [b]).zip (· - ·) s := by
  simp only [Sha1.compressSoft_eq, List.foldl_cons, List.foldl_nil, Spec.Sha1.compress, zip5_cancel]
  exact bij (sha1_rounds _ 80)

theorem C62_sha256 (b : Bytes) : Bijective fun s : V8 W32 => (Sha256.compressSoft s [b]).zip (· - ·) s := by
  simp only [Sha256.compressSoft_eq, List.foldl_cons, List.foldl_nil, Spec.Sha256.compress, zip8_cancel]
  exact bij (sha2_rounds _ _ _ _ 64)

theorem C62_sha512 (b : Bytes) : Bijective fun s : V8 W64 => (Sha512.compressSoft s [b]).zip (· - ·) s := by
  simp only [Sha512.compressSoft_eq, List.foldl_cons, List.foldl_nil, Spec.Sha512.compress, zip8_cancel]
  exact bij (sha2_rounds _ _ _ _ 80)

theorem C62_sm3 (b : Bytes) : Bijective fun s : V8 W32 => (Sm3.compress s b).zip (· ^^^ ·) s := by
  simp only [Sm3.compress_eq, Spec.Sm3.compress, zip8_cancel_xor]
  exact bij (sm3_rounds _ 64)

/-- RIPEMD-256: both lines together. -/
theorem C62_ripemd256 (b : Bytes) : Bijective fun s : V2 (V4 W32) =>
    V2.mk ((Ripemd.C256.compress s b).x0.zip (· - ·) s.x0) ((Ripemd.C256.compress s b).x1.zip (· - ·) s.x1) := by
  simp only [Ripemd.compress256_eq, Spec.Ripemd.compress256, zip4_cancel]
  apply bij
  intro s t h
  simp only [V2.mk.injEq] at h
  exact rmd256_inj _ (Prod.ext h.1 h.2)

/-- RIPEMD-320: both lines together. -/
theorem C62_ripemd320 (b : Bytes) : Bijective fun s : V2 (V5 W32) =>
    V2.mk ((Ripemd.C320.compress s b).x0.zip (· - ·) s.x0) ((Ripemd.C320.compress s b).x1.zip (· - ·) s.x1) := by
  simp only [Ripemd.compress320_eq, Spec.Ripemd.compress320, zip5_cancel]
  apply bij
  intro s t h
  simp only [V2.mk.injEq] at h
  exact rmd320_inj _ (Prod.ext h.1 h.2)

instance : Finite Tiger.V3 :=
  Finite.of_injective (β := W64 × W64 × W64) (fun v => (v.x0, v.x1, v.x2)) (fun a b h => by
    simp only [Prod.mk.injEq] at h; exact Tiger.V3.ext h.1 h.2.1 h.2.2)

/-- Tiger, for whatever S-boxes: the feed-forward is `^`, `-`, `+`. -/
theorem C62_tiger (T : List (List W64)) (b : Bytes) : Bijective fun s : Tiger.V3 =>
    Tiger.V3.mk ((Tiger.compress T s b).x0 ^^^ s.x0) ((Tiger.compress T s b).x1 + s.x1) ((Tiger.compress T s b).x2 - s.x2) := by
  apply bij
  intro s t h
  have e : ∀ s : Tiger.V3, ((Tiger.compress T s b).x0 ^^^ s.x0, (Tiger.compress T s b).x1 + s.x1, (Tiger.compress T s b).x2 - s.x2) =
      tigerPasses (Tiger.tab T) ((List.range 8).map (wordLE 64 b)) s.regs := by
    intro s
    refine tiger_ff _ _ s ?_
    rw [Tiger.compress_eq]
    simp only [Spec.Tiger.compress, tigerPasses, Tiger.V3.regs]
  have h' := e s
  simp only [Tiger.V3.mk.injEq] at h
  rw [h.1, h.2.1, h.2.2, e t] at h'
  have := tigerPasses_inj _ _ h'
  simp only [Tiger.V3.regs, Prod.mk.injEq] at this
  exact Tiger.V3.ext this.1.symm this.2.1.symm this.2.2.symm

/-- Tiger's key schedule is a permutation of the block. -/
theorem C62_tiger_schedule : Bijective Tiger.keySchedule := bij keySchedule_inj

example : (Md4.compress ⟨1, 2, 3, 4⟩ []).zip (· - ·) ⟨1, 2, 3, 4⟩ ≠ (Md4.compress ⟨1, 2, 3, 5⟩ []).zip (· - ·) ⟨1, 2, 3, 5⟩ :=
  fun h => absurd ((C62_md4 []).1 h) (by decide)
example : ∃ s, (Sha1.compressSoft s [List.replicate 64 7]).zip (· - ·) s = ⟨0, 0, 0, 0, 0⟩ := (C62_sha1 _).2 _
example : ∃ s, (Sha256.compressSoft s [List.replicate 64 7]).zip (· - ·) s = ⟨0, 0, 0, 0, 0, 0, 0, 0⟩ := (C62_sha256 _).2 _
/-- With the feed-forward left in, MD4 is not required to be a permutation; the subtraction in the statement matters: for the
block function of the empty block two states differ although one of them is fixed up by the addition. -/
example : Md4.compress ⟨0, 0, 0, 0⟩ [] ≠ (Md4.compress ⟨0, 0, 0, 1⟩ []).zip (· - ·) ⟨0, 0, 0, 1⟩ := by decide +kernel
example : Tiger.keySchedule ⟨1, 0, 0, 0, 0, 0, 0, 0⟩ ≠ Tiger.keySchedule ⟨0, 0, 0, 0, 0, 0, 0, 0⟩ :=
  fun h => absurd (C62_tiger_schedule.1 h) (by decide)

/-! ### Miyaguchi–Preneel designs: the inner block cipher, for every chaining value -/

/-- Whirlpool: `m ↦ compress(s, m) ⊕ s ⊕ m` is a permutation of the blocks (as words). -/
theorem C62_whirlpool (s : V8 W64) : Bijective fun m : V8 W64 =>
    ((Whirlpool.compress s (bytesOfWordsLE m.toList)).zip (· ^^^ ·) s).zip (· ^^^ ·) m := by
  apply bij
  intro m m' h
  have key : ∀ m : V8 W64, ((Whirlpool.compress s (bytesOfWordsLE m.toList)).zip (· ^^^ ·) s).zip (· ^^^ ·) m =
      ((List.range 10).foldl Whirlpool.roundBody (s, m.zip (· ^^^ ·) s)).2 := by
    intro m
    have e : V8.ofFn (wordLE 64 (bytesOfWordsLE m.toList)) = m := Streebog.from_to m
    simp only [Whirlpool.compress, e]
    generalize ((List.range 10).foldl Whirlpool.roundBody _).2 = x
    have c : ∀ a b c : W64, b ^^^ (a ^^^ c) ^^^ b ^^^ c = a := by
      intro a b c
      rw [show b ^^^ (a ^^^ c) ^^^ b ^^^ c = a ^^^ (b ^^^ b) ^^^ (c ^^^ c) by ac_rfl]
      simp
    apply V8.ext <;> simp only [V8.zip, c]
  simp only [key] at h
  have g : Spec.Whirlpool.rounds (Whirlpool.mat s) (Whirlpool.mat m) 10 = Spec.Whirlpool.rounds (Whirlpool.mat s) (Whirlpool.mat m') 10 := by
    rw [← (Whirlpool.rounds_eq s m 10 (by decide)).2, ← (Whirlpool.rounds_eq s m' 10 (by decide)).2, h]
  exact mat_inj ((whirlpool_W _ 10).2 _ _ (shaped_matW m) (shaped_matW m') g)

/-- Streebog: for every `h`, `N` the map `m ↦ g(h, N, m) ⊕ h ⊕ m` is a permutation, and so is the key derivation `h ↦ LPS(h ⊕ N)`. -/
theorem C62_streebog (h n : V8 W64) : (Bijective fun m : V8 W64 => ((Streebog.g h n m).zip (· ^^^ ·) h).zip (· ^^^ ·) m) ∧
    Bijective fun h => Streebog.lps h n := by
  constructor
  · apply bij
    intro m m' e
    have key : ∀ m : V8 W64, Whirlpool.mat (((Streebog.g h n m).zip (· ^^^ ·) h).zip (· ^^^ ·) m) =
        Spec.Streebog.E Streebog.consts (Spec.Streebog.LPS (Spec.Streebog.X (Whirlpool.mat h) (Whirlpool.mat n))) (Whirlpool.mat m) := by
      intro m
      have hs := (streebog_E Streebog.consts (Spec.Streebog.LPS (Spec.Streebog.X (Whirlpool.mat h) (Whirlpool.mat n)))).1 _ (shaped_matW m)
      rw [Whirlpool.mat_xor, Whirlpool.mat_xor, Streebog.mat_g, Spec.Streebog.g]
      generalize Spec.Streebog.E _ _ _ = x at hs ⊢
      exact xx_cancel hs _ _
    have e := congrArg Whirlpool.mat e
    simp only [key] at e
    exact mat_inj ((streebog_E _ _).2 _ _ (shaped_matW m) (shaped_matW m') e)
  · apply bij
    intro a b e
    have e := congrArg Whirlpool.mat e
    have ka := Streebog.mat_lps a n
    have kb := Streebog.mat_lps b n
    simp only [ka, kb] at e
    exact mat_inj ((streebog_LPS.comp (ginj_xor_right (Whirlpool.mat n))).2 _ _ (shaped_matW a) (shaped_matW b) e)

/-- Skein, over a block cipher that permutes the blocks for every key and tweak. -/
theorem C62_skein {n : Nat} (E : Skein.Cipher n) (hE : ∀ k t, Bijective (E k t)) (s : Skein.State n) (add : Nat) :
    Bijective fun m : Arr 64 n =>
      let x := (Skein.processBlock E s (bytesOfWordsLE m.toList) add).x
      (Arr.ofFn n fun i => m.get i ^^^ x.get i : Arr 64 n) := by
  have key : ∀ m : Arr 64 n, (let x := (Skein.processBlock E s (bytesOfWordsLE m.toList) add).x
      (Arr.ofFn n fun i => m.get i ^^^ x.get i : Arr 64 n)) = E s.x (s.t0 + BitVec.ofNat 64 add, s.t1) m := by
    intro m
    have e : Arr.ofFn n (wordLE 64 (bytesOfWordsLE m.toList)) = m := Arr.ext_get fun i hi => by
      rw [Arr.get_ofFn _ hi, Simd.wordLE_words64 _ (by simpa using hi)]
      rfl
    simp only [Skein.processBlock, e]
    apply Arr.ext_get
    intro i hi
    rw [Arr.get_ofFn _ hi, Arr.get_ofFn _ hi, ← BitVec.xor_assoc, BitVec.xor_self, BitVec.zero_xor]
  simp only [key]
  exact hE _ _

example : ∃ m, ((Whirlpool.compress ⟨1, 2, 3, 4, 5, 6, 7, 8⟩ (bytesOfWordsLE m.toList)).zip (· ^^^ ·) ⟨1, 2, 3, 4, 5, 6, 7, 8⟩).zip (· ^^^ ·) m =
    ⟨0, 0, 0, 0, 0, 0, 0, 0⟩ := (C62_whirlpool _).2 _
example : Streebog.lps ⟨0, 0, 0, 0, 0, 0, 0, 0⟩ ⟨1, 0, 0, 0, 0, 0, 0, 0⟩ ≠ Streebog.lps ⟨2, 0, 0, 0, 0, 0, 0, 0⟩ ⟨1, 0, 0, 0, 0, 0, 0, 0⟩ :=
  fun e => absurd ((C62_streebog ⟨0, 0, 0, 0, 0, 0, 0, 0⟩ _).2.1 e) (by decide)
/-- The hypothesis on the cipher is met by a cipher that uses key, tweak and block. -/
example : ∀ (k : Arr 64 4) (t : W64 × W64), Bijective fun m : Arr 64 4 => (Arr.ofFn 4 fun i => m.get i + k.get i + t.1 : Arr 64 4) :=
  fun _ _ => bij fun _ _ h => Arr.ext_get fun i hi => add_left_eq (add_left_eq (arr_ofFn_eq h i hi))

/-! ### Permutation-based designs: the whole state -/

/-- Groestl: `P` and `Q` of both sizes. -/
theorem C62_groestl : (Bijective (Groestl.permP (n := 8) Groestl.short) ∧ Bijective (Groestl.permQ (n := 8) Groestl.short)) ∧
    Bijective (Groestl.permP (n := 16) Groestl.long) ∧ Bijective (Groestl.permQ (n := 16) Groestl.long) := by
  refine ⟨⟨bij fun a b h => ?_, bij fun a b h => ?_⟩, bij fun a b h => ?_, bij fun a b h => ?_⟩
  · have e := congrArg Groestl.mat h
    have ka := Groestl.mat_permP Groestl.match_short a
    have kb := Groestl.mat_permP Groestl.match_short b
    exact matBE_inj ((groestl_P Spec.Groestl.p512).2 _ _ (shaped_mat a) (shaped_mat b) (ka.symm.trans (e.trans kb)))
  · have e := congrArg Groestl.mat h
    have ka := Groestl.mat_permQ Groestl.match_short a
    have kb := Groestl.mat_permQ Groestl.match_short b
    exact matBE_inj ((groestl_Q Spec.Groestl.p512).2 _ _ (shaped_mat a) (shaped_mat b) (ka.symm.trans (e.trans kb)))
  · have e := congrArg Groestl.mat h
    have ka := Groestl.mat_permP Groestl.match_long a
    have kb := Groestl.mat_permP Groestl.match_long b
    exact matBE_inj ((groestl_P Spec.Groestl.p1024).2 _ _ (shaped_mat a) (shaped_mat b) (ka.symm.trans (e.trans kb)))
  · have e := congrArg Groestl.mat h
    have ka := Groestl.mat_permQ Groestl.match_long a
    have kb := Groestl.mat_permQ Groestl.match_long b
    exact matBE_inj ((groestl_Q Spec.Groestl.p1024).2 _ _ (shaped_mat a) (shaped_mat b) (ka.symm.trans (e.trans kb)))

/-- Groestl: hence the compression without its feed-forward, for every block. -/
theorem C62_groestl_compress (b : Bytes) :
    (Bijective fun h : Arr 64 8 => (Arr.ofFn 8 fun i => (Groestl.compress Groestl.short h b).get i ^^^ h.get i : Arr 64 8)) ∧
    Bijective fun h : Arr 64 16 => (Arr.ofFn 16 fun i => (Groestl.compress Groestl.long h b).get i ^^^ h.get i : Arr 64 16) :=
  ⟨bij (groestl_ff _ C62_groestl.1.1.1 b), bij (groestl_ff _ C62_groestl.2.1.1 b)⟩

/-- Kupyna: `T⊕` and `T+` of both sizes permute the byte strings of 64 resp. 128 bytes. -/
theorem C62_kupyna :
    (Set.BijOn (Kupyna.tXor Kupyna.short) {b | b.length = 64} {b | b.length = 64} ∧
     Set.BijOn (Kupyna.tPlus Kupyna.short) {b | b.length = 64} {b | b.length = 64}) ∧
    Set.BijOn (Kupyna.tXor Kupyna.long) {b | b.length = 128} {b | b.length = 128} ∧
    Set.BijOn (Kupyna.tPlus Kupyna.long) {b | b.length = 128} {b | b.length = 128} := by
  refine ⟨⟨bijOn_bytes ?_ ?_, bijOn_bytes ?_ ?_⟩, bijOn_bytes ?_ ?_, bijOn_bytes ?_ ?_⟩
  · intro b _
    rw [Kupyna.tXor_eq Kupyna.match_short]
    exact (Kupyna.shaped_Txor Kupyna.match_short ⟨_, rfl⟩).length
  · intro b b' hb hb' h
    rw [Kupyna.tXor_eq Kupyna.match_short, Kupyna.tXor_eq Kupyna.match_short] at h
    exact gridOf_inj hb hb' ((kupyna_Txor Spec.Kupyna.p512 (by decide)).2 _ _ ⟨_, rfl⟩ ⟨_, rfl⟩ (flatten_inj
      (Kupyna.shaped_Txor Kupyna.match_short ⟨_, rfl⟩) (Kupyna.shaped_Txor Kupyna.match_short ⟨_, rfl⟩) h))
  · intro b _
    rw [Kupyna.tPlus_eq Kupyna.match_short]
    exact (Kupyna.shaped_Tplus Kupyna.match_short ⟨_, rfl⟩).length
  · intro b b' hb hb' h
    rw [Kupyna.tPlus_eq Kupyna.match_short, Kupyna.tPlus_eq Kupyna.match_short] at h
    exact gridOf_inj hb hb' ((kupyna_Tplus Spec.Kupyna.p512 (by decide)).2 _ _ ⟨_, rfl⟩ ⟨_, rfl⟩ (flatten_inj
      (Kupyna.shaped_Tplus Kupyna.match_short ⟨_, rfl⟩) (Kupyna.shaped_Tplus Kupyna.match_short ⟨_, rfl⟩) h))
  · intro b _
    rw [Kupyna.tXor_eq Kupyna.match_long]
    exact (Kupyna.shaped_Txor Kupyna.match_long ⟨_, rfl⟩).length
  · intro b b' hb hb' h
    rw [Kupyna.tXor_eq Kupyna.match_long, Kupyna.tXor_eq Kupyna.match_long] at h
    exact gridOf_inj hb hb' ((kupyna_Txor Spec.Kupyna.p1024 (by decide)).2 _ _ ⟨_, rfl⟩ ⟨_, rfl⟩ (flatten_inj
      (Kupyna.shaped_Txor Kupyna.match_long ⟨_, rfl⟩) (Kupyna.shaped_Txor Kupyna.match_long ⟨_, rfl⟩) h))
  · intro b _
    rw [Kupyna.tPlus_eq Kupyna.match_long]
    exact (Kupyna.shaped_Tplus Kupyna.match_long ⟨_, rfl⟩).length
  · intro b b' hb hb' h
    rw [Kupyna.tPlus_eq Kupyna.match_long, Kupyna.tPlus_eq Kupyna.match_long] at h
    exact gridOf_inj hb hb' ((kupyna_Tplus Spec.Kupyna.p1024 (by decide)).2 _ _ ⟨_, rfl⟩ ⟨_, rfl⟩ (flatten_inj
      (Kupyna.shaped_Tplus Kupyna.match_long ⟨_, rfl⟩) (Kupyna.shaped_Tplus Kupyna.match_long ⟨_, rfl⟩) h))

/-- JH: `f8` permutes the state for every block; hence so does absorbing any sequence of blocks. -/
theorem C62_jh (blks : List Bytes) : Bijective fun s : V8 W128 => blks.foldl Jh.f8 s :=
  bij (inj_foldl blks fun b _ => jh_f8 b)

instance : Finite Shabal.State :=
  Finite.of_injective (β := Arr 32 12 × Arr 32 16 × Arr 32 16 × W64) (fun v => (v.a, v.b, v.c, v.w)) (fun a b h => by
    simp only [Prod.mk.injEq] at h; exact state_ext _ _ h.1 h.2.1 h.2.2.1 h.2.2.2)

/-- Shabal: the same for its whole state (`A`, `B`, `C` and the counter). -/
theorem C62_shabal (blks : List Bytes) : Bijective fun s : Shabal.State => blks.foldl Shabal.compress s :=
  bij (inj_foldl blks fun b _ => shabal_compress b)

/-- Keccak-f[1600] and the 12-round TurboSHAKE permutation permute the 25-lane states, and so does absorbing blocks. -/
theorem C62_keccak (blks : List Bytes) :
    Set.BijOn (fun s => blks.foldl (Sha3.absorbBlock Sha3.f24) s) {s | s.length = 25} {s | s.length = 25} ∧
    Set.BijOn (fun s => blks.foldl (Sha3.absorbBlock Sha3.f12) s) {s | s.length = 25} {s | s.length = 25} := by
  constructor
  · exact bijOn_absorb 24 (by decide) blks
  · exact bijOn_absorb 12 (by decide) blks

/-- Ascon: absorbing blocks permutes the state whenever the (external) permutation does; and `p^12` of the standard does. -/
theorem C62_ascon (P : V5 W64 → V5 W64) (hP : Bijective P) (blks : List Bytes) :
    (Bijective fun s => blks.foldl (Ascon.absorbBlock P) s) ∧ Bijective Spec.Ascon.p12 := by
  refine ⟨bij (inj_foldl blks fun b _ => ?_), bij ascon_p12⟩
  intro s t h
  have := hP.1 h
  simp only [V5.mk.injEq] at this
  obtain ⟨h0, h1, h2, h3, h4⟩ := this
  exact V5.ext (xor_left_eq h0) h1 h2 h3 h4

/-- BLAKE2: every round, and any sequence of rounds, permutes the working vector for every block and word schedule. -/
theorem C62_blake2 {w : Nat} (c : Blake2.Cfg w) (block : Bytes) (sigmas : List (List Nat)) :
    Bijective fun v => sigmas.foldl (fun v s => Blake2.round c (wordLE w block) s v) v :=
  bij (inj_foldl sigmas fun s _ => blake2_round c _ s)

example : Jh.f8 ⟨0, 0, 0, 0, 0, 0, 0, 0⟩ [1] ≠ Jh.f8 ⟨0, 0, 0, 0, 0, 0, 0, 1⟩ [1] :=
  fun h => absurd ((C62_jh [[1]]).1 h) (by decide)
example : ∃ s, Shabal.compress s [1, 2, 3] = ⟨Arr.ofFn 12 fun _ => 0, Arr.ofFn 16 fun _ => 0, Arr.ofFn 16 fun _ => 0, 0⟩ :=
  (C62_shabal [[1, 2, 3]]).2 _
example : ∃ s, s.length = 25 ∧ Sha3.absorbBlock Sha3.f24 s [1, 2, 3, 4, 5, 6, 7, 8] = List.replicate 25 0 := by
  obtain ⟨s, h1, h2⟩ := (C62_keccak [[1, 2, 3, 4, 5, 6, 7, 8]]).1.2.2 (show List.replicate 25 (0 : W64) ∈ {s : List W64 | s.length = 25} from rfl)
  exact ⟨s, h1, by simpa only [List.foldl] using h2⟩
example : ∃ b, b.length = 64 ∧ Kupyna.tPlus Kupyna.short b = List.replicate 64 0 := by
  obtain ⟨s, h1, h2⟩ := C62_kupyna.1.2.2.2 (show List.replicate 64 (0 : Byte) ∈ {s : Bytes | s.length = 64} from rfl)
  exact ⟨s, h1, h2⟩

/-! ### GOST R 34.11-94 and MD2 -/

/-- GOST R 34.11-94: the block cipher permutes the 8-byte blocks for every key and every S-box (also a non-bijective one),
the mixing `ψ` permutes the 32-byte strings, and the final mixing is a permutation in each of its three arguments. -/
theorem C62_gost94 (key : Bytes) (sb : List (List Byte)) (h m s : Bytes) :
    Set.BijOn (fun b => Gost94.encrypt b key sb) {b | b.length = 8} {b | b.length = 8} ∧
    Set.BijOn Gost94.psi {b | b.length = 32} {b | b.length = 32} ∧
    Set.BijOn (fun h => Gost94.shuffle h m s) {b | b.length = 32} {b | b.length = 32} ∧
    Set.BijOn (fun m => Gost94.shuffle h m s) {b | b.length = 32} {b | b.length = 32} ∧
    Set.BijOn (fun s => Gost94.shuffle h m s) {b | b.length = 32} {b | b.length = 32} :=
  ⟨bijOn_bytes (fun _ _ => Gost94.length_encrypt _ _ _) (fun _ _ => encrypt_inj key sb),
   bijOn_bytes Gost94.length_psi (fun _ _ => psi_inj),
   bijOn_bytes (fun _ _ => Gost94.length_shuffle _ _ _) (fun _ _ => shuffle_h),
   bijOn_bytes (fun _ _ => Gost94.length_shuffle _ _ _) (fun _ _ => shuffle_m),
   bijOn_bytes (fun _ _ => Gost94.length_shuffle _ _ _) (fun _ _ => shuffle_s)⟩

/-- MD2: the block and what `compress` leaves behind determine what it read of the state (`x[0..16]` and the checksum); and for
every checksum, the block is determined by the next checksum. -/
theorem C62_md2 (st st' : Md2.State) (hx : st.x.length = 48) (hx' : st'.x.length = 48) (hc : st.checksum.length = 16)
    (hc' : st'.checksum.length = 16) (b b' : Bytes) (hb : b.length = 16) (hb' : b'.length = 16) :
    (Md2.compress st b = Md2.compress st' b → st.x.take 16 = st'.x.take 16 ∧ st.checksum = st'.checksum) ∧
    ((Md2.compress st b).checksum = (Md2.compress st b').checksum → b = b') := by
  constructor
  · intro h
    simp only [Md2.compress, Md2.State.mk.injEq] at h
    obtain ⟨h1, h2⟩ := h
    have e := rounds_inj 18 (by simp [hx]; omega) (by simp [hx']; omega) h1
    rw [List.append_assoc, List.append_assoc] at e
    exact ⟨(List.append_inj e (by simp [hx, hx'])).1, checksum_inj b hb hc hc' h2⟩
  · exact checksum_block _ _ (by omega) (by omega)

example : ∃ b, b.length = 8 ∧ Gost94.encrypt b (List.replicate 32 7) [] = [1, 2, 3, 4, 5, 6, 7, 8] := by
  obtain ⟨s, h1, h2⟩ := (C62_gost94 (List.replicate 32 7) [] [] [] []).1.2.2
    (show ([1, 2, 3, 4, 5, 6, 7, 8] : Bytes) ∈ {s : Bytes | s.length = 8} from rfl)
  exact ⟨s, h1, h2⟩
/-- `x[16..48]` is overwritten: states that differ only there do collide. -/
example : Md2.compress ⟨List.replicate 47 0 ++ [1], List.replicate 16 0⟩ (List.replicate 16 5) =
    Md2.compress Md2.init (List.replicate 16 5) := by decide +kernel

end Hashes
