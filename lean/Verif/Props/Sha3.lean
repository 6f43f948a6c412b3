import Verif.Props.Streaming
import Verif.Proof.CShake
/- C15, C16, C17, C18, C19, C20 (left_encode), C21, C22: the sha3 crate against FIPS 202, SP 800-185 and RFC 9861. -/
namespace Hashes
open Spec Spec.Keccak Sha3

/-! ### C15 -/

theorem length_squeeze_head {f : Lanes → Lanes} {rate n : Nat} (h : n ≤ rate) (S : Bytes) (hS : rate ≤ S.length) :
    (squeezeBytes f rate (n / rate + 1) S).take n = S.take n := by
  simp only [squeezeBytes]
  rw [List.take_append_of_le_length (by simp; omega), List.take_take, Nat.min_eq_left h]

theorem length_absorbBytes {f : Lanes → Lanes} (hf : Perm f) {rate : Nat} (D : Byte) (m : Bytes) :
    (absorbBytes f rate D m).length = 200 := by
  simp only [absorbBytes, onBytes, length_bytesOfWordsLE]
  rw [hf _ (by simp)]

theorem fixed_sponge {c n rate : Nat} {suf : List Bool} {D : Byte} (h : SepByte suf D) (hc : 1600 - c = 8 * rate)
    (h0 : 0 < rate) (h8 : 8 ∣ rate) (hr : rate ≤ 200) (hn : n ≤ rate) (l : List Bytes) :
    (fixed f24 n rate D).finish ((fixed f24 n rate D).updates (fixed f24 n rate D).new l) =
      bytesOf (keccak c (bitsOf l.flatten ++ suf) (8 * n)) := by
  rw [C01_digest_of_chunks _ (fixed_lawful perm24 h0 n D), fixed_digest_eq perm24 h0 h8 hr h.2.2.2, keccak, hc,
    sponge_bytes _ h0 hr h, ← spongeBytes_congr f24_eq, spongeBytes,
    length_squeeze_head hn _ (by rw [length_absorbBytes perm24]; exact hr)]

/-- C15. `Sha3_224/256/384/512` over any chunking equal FIPS 202. -/
theorem C15_sha3 (l : List Bytes) :
    sha3_224.finish (sha3_224.updates sha3_224.new l) = sha3 28 l.flatten ∧
    sha3_256.finish (sha3_256.updates sha3_256.new l) = sha3 32 l.flatten ∧
    sha3_384.finish (sha3_384.updates sha3_384.new l) = sha3 48 l.flatten ∧
    sha3_512.finish (sha3_512.updates sha3_512.new l) = sha3 64 l.flatten :=
  ⟨fixed_sponge (c := 448) (n := 28) (rate := 144) (suf := [false, true]) (D := 0x06) (by decide) (by decide) (by decide)
    (by decide) (by decide) (by decide) l,
   fixed_sponge (c := 512) (n := 32) (rate := 136) (suf := [false, true]) (D := 0x06) (by decide) (by decide) (by decide)
    (by decide) (by decide) (by decide) l,
   fixed_sponge (c := 768) (n := 48) (rate := 104) (suf := [false, true]) (D := 0x06) (by decide) (by decide) (by decide)
    (by decide) (by decide) (by decide) l,
   fixed_sponge (c := 1024) (n := 64) (rate := 72) (suf := [false, true]) (D := 0x06) (by decide) (by decide) (by decide)
    (by decide) (by decide) (by decide) l⟩

/-- C15. `Keccak224/256/384/512` over any chunking equal the Keccak submission (no domain bits). -/
theorem C15_keccak (l : List Bytes) :
    keccak224.finish (keccak224.updates keccak224.new l) = keccakOrig 448 28 l.flatten ∧
    keccak256.finish (keccak256.updates keccak256.new l) = keccakOrig 512 32 l.flatten ∧
    keccak384.finish (keccak384.updates keccak384.new l) = keccakOrig 768 48 l.flatten ∧
    keccak512.finish (keccak512.updates keccak512.new l) = keccakOrig 1024 64 l.flatten := by
  have h : ∀ {c n rate : Nat}, 1600 - c = 8 * rate → 0 < rate → 8 ∣ rate → rate ≤ 200 → n ≤ rate →
      (fixed f24 n rate 0x01).finish ((fixed f24 n rate 0x01).updates (fixed f24 n rate 0x01).new l) =
        keccakOrig c n l.flatten := by
    intro c n rate h1 h2 h3 h4 h5
    rw [fixed_sponge (suf := []) (by decide) h1 h2 h3 h4 h5, List.append_nil]
    rfl
  exact ⟨h (c := 448) (n := 28) (rate := 144) (by decide) (by decide) (by decide) (by decide) (by decide),
    h (c := 512) (n := 32) (rate := 136) (by decide) (by decide) (by decide) (by decide) (by decide),
    h (c := 768) (n := 48) (rate := 104) (by decide) (by decide) (by decide) (by decide) (by decide),
    h (c := 1024) (n := 64) (rate := 72) (by decide) (by decide) (by decide) (by decide) (by decide)⟩

/-- C15. `Keccak256Full` returns the whole 200-byte final state (not 200 squeezed bytes: the rate is 136). -/
theorem C15_keccak256Full (l : List Bytes) :
    keccak256Full.finish (keccak256Full.updates keccak256Full.new l) = keccakState 512 l.flatten := by
  have h : SepByte [] 0x01 := by decide
  have e := absorb_bitsOf (keccakP 24) (r := 136) (by decide) (by decide) h l.flatten
  rw [List.append_nil] at e
  simp only [keccak256Full]
  rw [C01_digest_of_chunks _ (fixed_lawful perm24 (by decide) 200 0x01)]
  rw [fixed_digest_eq perm24 (by decide) (by decide) (by decide) (by decide), keccakState]
  have e : absorb (keccakP 24) (1600 - 512) (bitsOf l.flatten) = _ := e
  rw [e, bytesOf_bitsOf, ← absorbBytes_congr f24_eq, List.take_of_length_le (by rw [length_absorbBytes perm24]; exact Nat.le_refl _)]

set_option maxRecDepth 100000 in
/-- Concrete case: SHA3-256("abc") starts 3a 98 5d a7 4f e2 25 b2. -/
example : (sha3_256.finish (sha3_256.updates sha3_256.new [[0x61], [0x62, 0x63]])).take 8 =
    [0x3a, 0x98, 0x5d, 0xa7, 0x4f, 0xe2, 0x25, 0xb2] := by decide +kernel

/-! ### C16 -/

theorem shake_sponge {c rate : Nat} {suf : List Bool} {D : Byte} (h : SepByte suf D) (hc : 1600 - c = 8 * rate)
    (h0 : 0 < rate) (h8 : 8 ∣ rate) (hr : rate ≤ 200) (l : List Bytes) (sizes : List Nat) :
    ((xof f24 rate).reads ((xof f24 rate).reader
      ((shake f24 rate D).finish ((shake f24 rate D).updates (shake f24 rate D).new l))) sizes).1 =
      bytesOf (keccak c (bitsOf l.flatten ++ suf) (8 * sizes.sum)) := by
  rw [C01_digest_of_chunks _ (shake_lawful perm24 h0 D)]
  obtain ⟨h1, h2⟩ := shake_digest_eq perm24 h0 h8 hr h.2.2.2 l.flatten
  rw [XofCore.reads_eq (xof_lawful perm24 h0 hr) h1, read_eq perm24 h0 hr h1, h2, keccak, hc,
    sponge_bytes _ h0 hr h, ← spongeBytes_congr f24_eq, spongeBytes]

/-- C16. `Shake128` and `Shake256`: any chunking of the message, any sequence of output reads. -/
theorem C16_shake (l : List Bytes) (sizes : List Nat) :
    ((xof f24 168).reads ((xof f24 168).reader (shake128.finish (shake128.updates shake128.new l))) sizes).1 =
      Spec.Keccak.shake 128 l.flatten sizes.sum ∧
    ((xof f24 136).reads ((xof f24 136).reader (shake256.finish (shake256.updates shake256.new l))) sizes).1 =
      Spec.Keccak.shake 256 l.flatten sizes.sum :=
  ⟨shake_sponge (c := 256) (rate := 168) (suf := [true, true, true, true]) (D := 0x1f) (by decide) (by decide) (by decide)
    (by decide) (by decide) l sizes,
   shake_sponge (c := 512) (rate := 136) (suf := [true, true, true, true]) (D := 0x1f) (by decide) (by decide) (by decide) (by decide) (by decide) l sizes⟩

set_option maxRecDepth 100000 in
/-- Concrete case: SHAKE128("") starts 7f 9c 2b a4 e8 8f; read in two pieces. -/
example : ((xof f24 168).reads ((xof f24 168).reader (shake128.finish shake128.new)) [2, 0, 4]).1 =
    [0x7f, 0x9c, 0x2b, 0xa4, 0xe8, 0x8f] := by decide +kernel

/-! ### C17 -/

/-- C17. For every lawful reader core and every reader state reached from it, any sequence of reads yields the bytes of
one read of the total length, and what follows is independent of how the earlier bytes were split. -/
theorem C17_reads {ρ : Type} (x : XofCore ρ) {inv : ρ → Prop} (L : x.Lawful inv) {r : ρ} (hr : inv r)
    (before sizes after : List Nat) :
    let rd := (x.reads (x.reader r) before).2
    (x.reads rd sizes).1 = (x.read rd sizes.sum).1 ∧
    (x.reads (x.reads rd sizes).2 after).1 = (x.reads (x.read rd sizes.sum).2 after).1 := by
  have wf := (XofCore.reads_spec L (XofCore.WF.reader hr) before).2.1
  refine ⟨XofCore.reads_eq_of_wf L wf sizes, ?_⟩
  have a := XofCore.reads_eq_of_wf L wf (sizes ++ after)
  have b := XofCore.reads_eq_of_wf L wf (sizes.sum :: after)
  rw [show (sizes ++ after).sum = (sizes.sum :: after).sum by simp, ← b, XofCore.reads_append] at a
  simp only [XofCore.reads] at a
  exact (List.append_inj a (by
    rw [(XofCore.reads_spec L wf sizes).1, (XofCore.read_spec L wf _).1])).2

/-- C17. A shorter read is a prefix of a longer one. -/
theorem C17_prefix {ρ : Type} (x : XofCore ρ) {inv : ρ → Prop} (L : x.Lawful inv) {r : ρ} (hr : inv r)
    (before : List Nat) {n m : Nat} (h : n ≤ m) :
    let rd := (x.reads (x.reader r) before).2
    (x.read rd n).1 <+: (x.read rd m).1 :=
  XofCore.read_prefix L (XofCore.reads_spec L (XofCore.WF.reader hr) before).2.1 h

/-- C17 applies to the SHAKE, cSHAKE and TurboSHAKE readers after any input. -/
theorem C17_sha3 (rate : Nat) (hr : rate = 168 ∨ rate = 136) :
    (xof f24 rate).Lawful (fun s => s.length = 25) ∧ (xof f12 rate).Lawful (fun s => s.length = 25) ∧
    (∀ D m, ((shake f24 rate D).digest m).length = 25) ∧
    (∀ N S m, ((cshake f24 rate N S).digest m).length = 25) ∧
    (∀ d i m, Turbo.new d = some i → ((turbo f12 rate i).digest m).length = 25) := by
  have h0 : 0 < rate := by omega
  refine ⟨xof_lawful perm24 h0 (by omega), xof_lawful perm12 h0 (by omega), ?_, ?_, ?_⟩
  · intro D m
    obtain ⟨b, -, -, -, h4⟩ := Core.digest_eager (shake_lawful perm24 h0 D) rfl m
    rw [h4]
    exact length_absorbBlock perm24 (length_updateBlocks perm24 _ (by simp [Sha3.shake, zero])) _
  · intro N S m
    have L := cshake_lawful perm24 h0 N S
    obtain ⟨b, -, -, -, h4⟩ := Core.digest_eager L rfl m
    rw [h4]
    exact length_absorbBlock perm24 (length_updateBlocks perm24 _ L.inv_init.1) _
  · intro d i m hi
    have L := turbo_lawful perm12 h0 hi
    obtain ⟨b, -, -, -, h4⟩ := Core.digest_eager L rfl m
    rw [h4]
    exact length_absorbBlock perm12 (length_updateBlocks perm12 _ L.inv_init.1) _

/-! ### C22 -/

/-- C22. `TurboShake*::new(D)` panics exactly when `D` is outside `0x01..=0x7F`. -/
theorem C22_new (d : Byte) :
    (turboShake128 d = none ↔ ¬ (1 ≤ d.toNat ∧ d.toNat ≤ 127)) ∧
    (turboShake256 d = none ↔ ¬ (1 ≤ d.toNat ∧ d.toNat ≤ 127)) := by
  have : Turbo.new d = none ↔ ¬ (1 ≤ d.toNat ∧ d.toNat ≤ 127) := by
    unfold Turbo.new
    have e : (0x01 ≤ d ∧ d ≤ 0x7F) ↔ (1 ≤ d.toNat ∧ d.toNat ≤ 127) := by
      simp only [BitVec.le_def]; exact Iff.rfl
    by_cases h : 1 ≤ d.toNat ∧ d.toNat ≤ 127
    · rw [if_pos (e.2 h)]; simp [h]
    · rw [if_neg (fun h' => h (e.1 h'))]; simp [h]
  simp only [turboShake128, turboShake256, Option.map_eq_none_iff, this, and_self]

theorem turbo_sponge {rate : Nat} (h0 : 0 < rate) (h8 : 8 ∣ rate) (hr : rate ≤ 200) {d : Byte} {c : Core Turbo Lanes}
    (hc : (Turbo.new d).map (turbo f12 rate) = some c) (l : List Bytes) (sizes : List Nat) :
    ((xof f12 rate).reads ((xof f12 rate).reader (c.finish (c.updates c.new l))) sizes).1 =
      spongeBytes (keccakP 12) rate d l.flatten sizes.sum := by
  obtain ⟨i, hi, rfl⟩ : ∃ i, Turbo.new d = some i ∧ turbo f12 rate i = c := by
    cases h : Turbo.new d with
    | none => rw [h] at hc; simp at hc
    | some i => rw [h] at hc; exact ⟨i, rfl, by simpa using hc⟩
  rw [C01_digest_of_chunks _ (turbo_lawful perm12 h0 hi)]
  obtain ⟨h1, h2⟩ := turbo_digest_eq perm12 h0 h8 hr hi l.flatten
  rw [XofCore.reads_eq (xof_lawful perm12 h0 hr) h1, read_eq perm12 h0 hr h1, h2, ← spongeBytes_congr f12_eq, spongeBytes]

/-- C22. When `new(D)` returns, the output stream is RFC 9861's TurboSHAKE(M, D). -/
theorem C22_turboShake (d : Byte) (l : List Bytes) (sizes : List Nat) :
    (∀ c, turboShake128 d = some c →
      ((xof f12 168).reads ((xof f12 168).reader (c.finish (c.updates c.new l))) sizes).1 =
        turboShake 128 l.flatten d sizes.sum) ∧
    (∀ c, turboShake256 d = some c →
      ((xof f12 136).reads ((xof f12 136).reader (c.finish (c.updates c.new l))) sizes).1 =
        turboShake 256 l.flatten d sizes.sum) :=
  ⟨fun _ hc => turbo_sponge (rate := 168) (by decide) (by decide) (by decide) hc l sizes,
   fun _ hc => turbo_sponge (rate := 136) (by decide) (by decide) (by decide) hc l sizes⟩

set_option maxRecDepth 100000 in
/-- Concrete case: TurboSHAKE128("", 0x1F) starts 1e 41 5f 1c 59 83 af f2. -/
example : (turboShake128 0x1F).map (fun c => ((xof f12 168).read ((xof f12 168).reader (c.finish c.new)) 8).1) =
    some [0x1e, 0x41, 0x5f, 0x1c, 0x59, 0x83, 0xaf, 0xf2] := by decide +kernel

end Hashes
