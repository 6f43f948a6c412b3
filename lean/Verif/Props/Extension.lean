import Verif.Proof.Extension
/- C57: length extension through state import. -/
namespace Hashes
open Spec

/-- `Extendable c pad k image`: hasher `c` pads messages with `pad` (one byte, zeros, a `k`-byte length), and `image` writes a saved state
from a digest and a number of blocks. All hashers of the library that iterate a compression function and output the whole chaining value. -/
inductive Extendable : {σ : Type} → Core σ Bytes → (Bytes → Bytes) → Nat → (Bytes → Nat → Bytes) → Prop
  | sha1 : Extendable Sha1.sha1 Spec.Sha1.pad 8 imageBE32
  | sha256 : Extendable Sha256.sha256 Spec.Sha256.pad 8 imageSha256
  | sha512 : Extendable Sha512.sha512 Spec.Sha512.pad 16 imageSha512
  | md4 : Extendable Md4.md4 Spec.Md4.pad 8 imageLE
  | md5 : Extendable Md5.md5 Spec.Md5.pad 8 imageLE
  | ripemd128 : Extendable Ripemd.ripemd128 Spec.Ripemd.pad 8 imageLE
  | ripemd160 : Extendable Ripemd.ripemd160 Spec.Ripemd.pad 8 imageLE
  | ripemd256 : Extendable Ripemd.ripemd256 Spec.Ripemd.pad 8 imageLE
  | ripemd320 : Extendable Ripemd.ripemd320 Spec.Ripemd.pad 8 imageLE
  | sm3 : Extendable Sm3.sm3 Spec.Sm3.pad 8 imageBE32
  | whirlpool : Extendable Whirlpool.whirlpool Spec.Whirlpool.pad 32 imageWhirlpool
  | tiger : Extendable Tiger.tiger (fun m => mdPad 64 0x01 (leBytes 8 (8 * m.length)) m) 8 imageLE
  | tiger2 : Extendable Tiger.tiger2 (fun m => mdPad 64 0x80 (leBytes 8 (8 * m.length)) m) 8 imageLE

/-- What is shown of each. -/
def Extendable.Holds {σ : Type} (c : Core σ Bytes) (pad : Bytes → Bytes) (k : Nat) (image : Bytes → Nat → Bytes) : Prop :=
  (∃ inv : σ → Prop, c.Lawful inv ∧ c.SerLawful inv) ∧ c.kind = .eager ∧
  (∀ m, (pad m).length % c.bs = 0) ∧
  ∀ m, c.serialize (c.updateBlocks c.init (chunks c.bs (pad m))) ++ List.replicate (c.bs + 1) 0 =
    image (c.digest m) (paddedBlocks c.bs k m.length)

theorem pad_mod {bs k : Nat} (hk : k < bs) {d : Byte} {s m : Bytes} (hs : s.length = k) : (mdPad bs d s m).length % bs = 0 := by
  rw [mdPad_length hk hs, Nat.mul_mod_right]

theorem Ripemd.holds {α : Type} {M : Ripemd.Mod α} (L : M.Laws) : Extendable.Holds (Ripemd.core M) Spec.Ripemd.pad 8 imageLE := by
  refine ⟨⟨_, Ripemd.lawful, Ripemd.serLawful L⟩, rfl, fun m => pad_mod (bs := 64) (k := 8) (by decide) (by simp), fun m => ?_⟩
  rw [Ripemd.digest_eq (fun _ _ => rfl) m]
  simp only [Ripemd.core, Ripemd.updateBlocks, Ripemd.serialize, Ripemd.init, imageLE, leBytes_counter0]
  rw [Spec.Ripemd.pad, length_chunks_mdPad (k := 8) (by decide) (by simp)]

theorem Tiger.holds (v : Bool) : Extendable.Holds (Tiger.core Tiger.TABLES v)
    (fun m => mdPad 64 (if v then 0x80 else 0x01) (leBytes 8 (8 * m.length)) m) 8 imageLE := by
  refine ⟨⟨_, Tiger.lawful _ _, Tiger.serLawful _ _⟩, rfl, fun m => pad_mod (bs := 64) (k := 8) (by decide) (by simp), fun m => ?_⟩
  rw [Tiger.digest_eq, Spec.Tiger.hash, show Spec.Tiger.IV = Tiger.S0.regs from rfl, ← Tiger.foldl_compress]
  simp only [Tiger.core, Tiger.updateBlocks, Tiger.serialize, Tiger.init, imageLE, leBytes_counter0]
  rw [length_chunks_mdPad (k := 8) (by decide) (by simp)]
  rfl

theorem Extendable.holds {σ : Type} {c : Core σ Bytes} {pad : Bytes → Bytes} {k : Nat} {image : Bytes → Nat → Bytes}
    (h : Extendable c pad k image) : Extendable.Holds c pad k image := by
  cases h with
  | sha1 =>
    refine ⟨⟨_, Sha1.lawful, Sha1.serLawful⟩, rfl, fun m => pad_mod (bs := 64) (k := 8) (by decide) (by simp), fun m => ?_⟩
    rw [Sha1.digest_eq]
    simp only [Sha1.sha1, Sha1.updateBlocks, Sha1.serialize, Sha1.init, imageBE32, leBytes_counter0, Spec.Sha1.sha1]
    rw [Spec.Sha1.pad, length_chunks_mdPad (k := 8) (by decide) (by simp)]
    rw [swapWords_32, Sha1.compressSoft_eq]
    rfl
  | sha256 =>
    refine ⟨⟨_, Sha256.lawful.ct _ _, Sha256.serLawful.ct _ _⟩, rfl, fun m => pad_mod (bs := 64) (k := 8) (by decide) (by simp), fun m => ?_⟩
    rw [Sha256.sha256, Sha256.digest_chain, List.take_of_length_le (by rw [Sha256.length_be8]; exact Nat.le_refl _)]
    simp only [VarCore.ctWith, Sha256.varCore, Sha256.updateBlocks, Sha256.serialize, imageSha256, leBytes_counter0]
    rw [Spec.Sha256.pad, length_chunks_mdPad (k := 8) (by decide) (by simp)]
    rw [swapWords_32, Sha256.compressSoft_eq]
    rfl
  | sha512 =>
    refine ⟨⟨_, Sha512.lawful.ct _ _, Sha512.serLawful.ct _ _⟩, rfl, fun m => pad_mod (bs := 128) (k := 16) (by decide) (by simp), fun m => ?_⟩
    rw [Sha512.sha512, Sha512.digest_chain, List.take_of_length_le (by rw [length_bytesOfWordsBE]; exact Nat.le_refl _)]
    simp only [VarCore.ctWith, Sha512.varCore, Sha512.updateBlocks, Sha512.serialize, imageSha512, leBytes_counter16]
    rw [Spec.Sha512.pad, length_chunks_mdPad (k := 16) (by decide) (by simp)]
    rw [swapWords_64, Sha512.compressSoft_eq]
    rfl
  | md4 =>
    refine ⟨⟨_, Md4.lawful, Md4.serLawful⟩, rfl, fun m => pad_mod (bs := 64) (k := 8) (by decide) (by simp), fun m => ?_⟩
    rw [Md4.digest_eq]
    simp only [Md4.md4, Md4.updateBlocks, Md4.serialize, Md4.init, imageLE, leBytes_counter0, Spec.Md4.md4]
    rw [Spec.Md4.pad, length_chunks_mdPad (k := 8) (by decide) (by simp),
      show Md4.compress = Spec.Md4.compress from funext fun s => funext (Md4.compress_eq s)]
    rfl
  | md5 =>
    refine ⟨⟨_, Md5.lawful, Md5.serLawful⟩, rfl, fun m => pad_mod (bs := 64) (k := 8) (by decide) (by simp), fun m => ?_⟩
    rw [Md5.digest_eq]
    simp only [Md5.md5, Md5.updateBlocks, Md5.serialize, Md5.init, imageLE, leBytes_counter0, Spec.Md5.md5]
    rw [Spec.Md5.pad, length_chunks_mdPad (k := 8) (by decide) (by simp), Md5.compress_eq]
    rfl
  | ripemd128 => exact Ripemd.holds Ripemd.laws128
  | ripemd160 => exact Ripemd.holds Ripemd.laws160
  | ripemd256 => exact Ripemd.holds Ripemd.laws256
  | ripemd320 => exact Ripemd.holds Ripemd.laws320
  | sm3 =>
    refine ⟨⟨_, Sm3.lawful, Sm3.serLawful⟩, rfl, fun m => pad_mod (bs := 64) (k := 8) (by decide) (by simp), fun m => ?_⟩
    rw [Sm3.digest_eq]
    simp only [Sm3.sm3, Sm3.updateBlocks, Sm3.serialize, Sm3.init, imageBE32, leBytes_counter0, Spec.Sm3.sm3]
    rw [Spec.Sm3.pad, length_chunks_mdPad (k := 8) (by decide) (by simp),
      show Sm3.compress = Spec.Sm3.compress from funext fun s => funext (Sm3.compress_eq s)]
    rw [swapWords_32]
    rfl
  | whirlpool =>
    refine ⟨⟨_, Whirlpool.lawful, Whirlpool.serLawful⟩, rfl, fun m => pad_mod (bs := 64) (k := 32) (by decide) (by simp), fun m => ?_⟩
    rw [Whirlpool.digest_md]
    simp only [Whirlpool.whirlpool, Whirlpool.updateBlocks, Whirlpool.serialize, Whirlpool.init, imageWhirlpool]
    have hv := Whirlpool.val_blocks ⟨0, 0, 0, 0⟩ (chunks 64 (Spec.Whirlpool.pad m))
    rw [Spec.Whirlpool.pad, length_chunks_mdPad (k := 32) (by decide) (by simp), show Whirlpool.val ⟨0, 0, 0, 0⟩ = 0 from rfl,
      Nat.zero_add] at hv
    have e : beBytes 32 (512 * paddedBlocks 64 32 m.length) = beBytes 32 (512 * paddedBlocks 64 32 m.length % 2 ^ 256) :=
      beBytes_congr (by rw [show (2 : Nat) ^ 256 = 256 ^ 32 by decide]; exact (Nat.mod_mod _ _).symm)
    rw [Spec.Whirlpool.pad, e, ← hv, ← Whirlpool.beBytes_val]
    rw [swapWords_64]
  | tiger => exact Tiger.holds false
  | tiger2 => exact Tiger.holds true

/-- C57. The bytes written from the digest of `m` and its length alone are accepted as a saved state, and the hasher so obtained gives,
for every further input in any chunking, the digest of the padded message followed by that input. -/
theorem C57_length_extension {σ : Type} {c : Core σ Bytes} {pad : Bytes → Bytes} {k : Nat} {image : Bytes → Nat → Bytes}
    (h : Extendable c pad k image) (m : Bytes) :
    ∃ s, c.load (image (c.finish (c.update c.new m)) (paddedBlocks c.bs k m.length)) = some s ∧
      ∀ xs : List Bytes, c.finish (c.updates s xs) = c.finish (c.update c.new (pad m ++ xs.flatten)) := by
  obtain ⟨⟨inv, L, S⟩, hk, hm, hi⟩ := h.holds
  obtain ⟨s, h1, h2⟩ := Core.load_image L S hk (pad m) (hm m)
  refine ⟨s, ?_, fun xs => (h2.updates L xs).finish L⟩
  rw [← h1, hi m]; rfl

/-- Concrete case: from the SHA-256 digest of "abc" and the length 3 one obtains the digest of "abc" with its padding followed by 0x21. -/
example :
    (Sha256.sha256.load (imageSha256 (Sha256.sha256.finish (Sha256.sha256.update Sha256.sha256.new [0x61, 0x62, 0x63])) 1)).map
      (fun s => Sha256.sha256.finish (Sha256.sha256.update s [0x21])) =
    some (Sha256.sha256.finish (Sha256.sha256.update Sha256.sha256.new
      ([0x61, 0x62, 0x63, 0x80] ++ List.replicate 59 0 ++ [24] ++ [0x21]))) := by decide +kernel
/-- Concrete case: 55 bytes fit one block with their padding, 56 do not. -/
example : paddedBlocks 64 8 55 = 1 ∧ paddedBlocks 64 8 56 = 2 ∧ paddedBlocks 128 16 111 = 1 ∧ paddedBlocks 64 32 31 = 1 := by decide

end Hashes
