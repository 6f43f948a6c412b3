import Verif.Proof.Sha256X86
import Verif.Proof.Sha1X86
import Verif.Proof.Sha1Arm
import Verif.Proof.Sha256Arm
import Verif.Proof.Sha512Arm
import Verif.Proof.Sha256
import Verif.Proof.Sha512
import Verif.Proof.Sha256Simd
import Verif.Proof.Sha512Simd
import Verif.Proof.Sha2Riscv
import Verif.Proof.Jh
import Verif.Proof.Checked.Sha1Ptr
import Verif.Proof.Checked.Sha2Ptr
import Verif.Proof.Checked.Sha2Simd
import Verif.Proof.Checked.SoftPtr
import Verif.Proof.Checked.Riscv
/-
C61, continued: the Rust code that works through raw pointers.  The transcriptions of Checked/Sha1Ptr.lean, Sha2Ptr.lean, Sha2Simd.lean,
SoftPtr.lean and Riscv.lean return `none` at the first pointer operation that Rust does not define (Base/Raw.lean) and at the
first failed run-time check.  The theorems say that this never happens, wherever the objects are in memory, and that the result is
that of the standard; for RISC-V they say exactly when it happens.
-/
namespace Hashes.Memory

open Raw

/-- C61 (SHA-1). State at any address `a`, blocks at any addresses: neither backend leaves its objects, and both compute FIPS 180-4. -/
theorem C61_sha1 (a : Nat) (s : V5 W32) (blks : List Obj) (hb : ∀ o ∈ blks, o.data.length = 64) :
    Sha1.X86.compressC a s blks = some ((blks.map Obj.data).foldl Spec.Sha1.compress s) ∧
    Sha1.Arm.compressC a s blks = some ((blks.map Obj.data).foldl Spec.Sha1.compress s) := by
  have hd : ∀ b ∈ blks.map Obj.data, b.length = 64 := by
    intro b h
    obtain ⟨o, ho, rfl⟩ := List.mem_map.1 h
    exact hb o ho
  exact ⟨by rw [Sha1.X86.compressC_eq a s blks hb, Sha1.X86.compress_eq _ _ hd],
    by rw [Sha1.Arm.compressC_eq a s blks hb, Sha1.Arm.compress_eq _ _ hd]⟩

/-- C61 (SHA-256). State at any address `a`, constants at any address `k` (a multiple of 4 for the aligned reads of the portable code),
blocks at any addresses. -/
theorem C61_sha256 (k a : Nat) (s : V8 W32) (blks : List Obj) (hb : ∀ o ∈ blks, o.data.length = 64) :
    Sha256.X86.compressC a s blks = some ((blks.map Obj.data).foldl Spec.Sha256.compress s) ∧
    Sha256.Arm.compressC k a s blks = some ((blks.map Obj.data).foldl Spec.Sha256.compress s) ∧
    Sha2Simd.wasm256C k s blks = some ((blks.map Obj.data).foldl Spec.Sha256.compress s) ∧
    (k % 4 = 0 → Sha256.compressSoftC k s blks = some ((blks.map Obj.data).foldl Spec.Sha256.compress s)) := by
  have hd : ∀ b ∈ blks.map Obj.data, b.length = 64 := by
    intro b h
    obtain ⟨o, ho, rfl⟩ := List.mem_map.1 h
    exact hb o ho
  exact ⟨by rw [Sha256.X86.compressC_eq a s blks hb, Sha256.X86.compress_eq _ _ hd],
    by rw [Sha256.Arm.compressC_eq k a s blks hb, Sha256.Arm.compress_eq _ _ hd],
    by rw [Sha2Simd.wasm256C_eq k s blks hb, Sha2Simd.wasm256_eq _ _ hd],
    fun hk => by rw [Sha256.compressSoftC_eq hk s blks hb, Sha256.compressSoft_eq]⟩

/-- C61 (SHA-512). -/
theorem C61_sha512 (k a : Nat) (s : V8 W64) (blks : List Obj) (hb : ∀ o ∈ blks, o.data.length = 128) :
    Sha512.Arm.compressC k a s blks = some ((blks.map Obj.data).foldl Spec.Sha512.compress s) ∧
    Sha2Simd.wasm512C k s blks = some ((blks.map Obj.data).foldl Spec.Sha512.compress s) ∧
    (k % 8 = 0 → Sha512.compressSoftC k s blks = some ((blks.map Obj.data).foldl Spec.Sha512.compress s)) := by
  have hd : ∀ b ∈ blks.map Obj.data, b.length = 128 := by
    intro b h
    obtain ⟨o, ho, rfl⟩ := List.mem_map.1 h
    exact hb o ho
  exact ⟨by rw [Sha512.Arm.compressC_eq k a s blks hb, Sha512.Arm.compress_eq _ _ hd],
    by rw [Sha2Simd.wasm512C_eq k s blks hb, Sha2Simd.wasm512_eq _ _ hd],
    fun hk => by rw [Sha512.compressSoftC_eq hk s blks hb, Sha512.compressSoft_eq]⟩

/-- C61 (SHA-512, AVX2). The code takes one pointer to the array of blocks, handles the first block alone when their number is odd
and steps through the others two at a time; any number of blocks, any addresses. -/
theorem C61_sha512_avx2 (k a : Nat) (s : V8 W64) (blks : List Bytes) (hb : ∀ b ∈ blks, b.length = 128) :
    Sha2Simd.avx2C k s ⟨a, blks.flatten⟩ blks.length = some (blks.foldl Spec.Sha512.compress s) := by
  rw [Sha2Simd.avx2C_eq k a s blks hb, Sha2Simd.avx2_eq _ _ hb]

/-- C61 (JH). The eight reads of the block (four before the rounds, four after) stay in it, whatever its address. -/
theorem C61_jh (y : V8 W128) (o : Obj) (h : o.data.length = 64) :
    ∃ z, Jh.f8C y o = some z ∧ Jh.bytes z = Spec.Jh.F8 (Jh.bytes y) o.data :=
  ⟨_, Jh.f8C_eq y o h, Jh.f8_eq y _ h⟩

/-- The checks are not vacuous: a block of 63 bytes makes every backend leave it. -/
example : Sha256.X86.compressC 0 (V8.ofFn fun _ => 0) [⟨1, List.replicate 63 0⟩] = none := by decide +kernel
example : Sha256.Arm.compressC 0 0 (V8.ofFn fun _ => 0) [⟨1, List.replicate 63 0⟩] = none := by decide +kernel
example : Sha1.X86.compressC 0 ⟨0, 0, 0, 0, 0⟩ [⟨1, List.replicate 63 0⟩] = none := by decide +kernel
example : Sha2Simd.avx2C 0 (V8.ofFn fun _ => 0) ⟨1, List.replicate 127 0⟩ 1 = none := by decide +kernel
example : Sha2Simd.avx2C 0 (V8.ofFn fun _ => 0) ⟨1, List.replicate 255 0⟩ 2 = none := by decide +kernel
example : Jh.f8C (V8.ofFn fun _ => 0) ⟨1, List.replicate 63 0⟩ = none := by decide +kernel
/-- Nor is the alignment of the constants: at an odd address the aligned reads of the portable code are undefined. -/
example : Sha256.compressSoftC 1 (V8.ofFn fun _ => 0) [⟨1, List.replicate 64 0⟩] = none := by decide +kernel

/-! ### RISC-V -/

open Sha2Riscv

section Riscv
variable (m : Riscv.Mem) (r : Region) (p n : Nat)

theorem zknh256_eq (strict : Bool) {xlen : Nat} (hx : 32 ≤ xlen) (s : V8 W32) (hlo : r.lo ≤ p) (hhi : p + 64 * n ≤ r.hi)
    (hs : strict = true → r.lo ≤ p - p % 4) :
    zknh256 m r p n strict xlen s.toList = some ((blocksAt 64 m p n).foldl Spec.Sha256.compress s).toList ∧
    zknh256Compact m r p n strict xlen s.toList = some ((blocksAt 64 m p n).foldl Spec.Sha256.compress s).toList := by
  have h1 := compressChk_eq (k := 4) (by decide) (fun p => loadBlock32Chk_eq (strict := strict) (xlen := xlen) m)
    (compressBlockUChk_eq ops256 (by decide)) hlo hhi hs (arr s)
  have h2 := compressChk_eq (k := 4) (by decide) (fun p => loadBlock32Chk_eq (strict := strict) (xlen := xlen) m)
    (compressBlockCChk_eq ops256 (by decide)) hlo hhi hs (arr s)
  exact ⟨h1.trans (congrArg (fun x => some (Arr.toList x)) (compress256_eq hx m p n s)),
    h2.trans (congrArg (fun x => some (Arr.toList x)) (compress256Compact_eq hx m p n s))⟩

theorem zknh512_eq (strict : Bool) (s : V8 W64) (hlo : r.lo ≤ p) (hhi : p + 128 * n ≤ r.hi)
    (hs : strict = true → r.lo ≤ p - p % 8) :
    zknh512 m r p n strict s.toList = some ((blocksAt 128 m p n).foldl Spec.Sha512.compress s).toList ∧
    zknh512Compact m r p n strict s.toList = some ((blocksAt 128 m p n).foldl Spec.Sha512.compress s).toList := by
  have h1 := compressChk_eq (k := 8) (by decide) (fun p => loadBlock64Chk_eq (strict := strict) m)
    (compressBlockUChk_eq ops512 (by decide)) hlo hhi hs (arr s)
  have h2 := compressChk_eq (k := 8) (by decide) (fun p => loadBlock64Chk_eq (strict := strict) m)
    (compressBlockCChk_eq ops512 (by decide)) hlo hhi hs (arr s)
  exact ⟨h1.trans (congrArg (fun x => some (Arr.toList x)) (compress512_eq m p n s)),
    h2.trans (congrArg (fun x => some (Arr.toList x)) (compress512Compact_eq m p n s))⟩

theorem zknh512'_eq (strict : Bool) (s : V8 W64) (hlo : r.lo ≤ p) (hhi : p + 128 * n ≤ r.hi)
    (hs : strict = true → r.lo ≤ p - p % 4) :
    zknh512' m r p n strict s.toList = some ((blocksAt 128 m p n).foldl Spec.Sha512.compress s).toList ∧
    zknh512Compact' m r p n strict s.toList = some ((blocksAt 128 m p n).foldl Spec.Sha512.compress s).toList := by
  have h1 := compressChk_eq (k := 4) (by decide) (fun p => loadBlock64Chk'_eq (strict := strict) m)
    (compressBlockUChk_eq ops512' (by decide)) hlo hhi hs (arr s)
  have h2 := compressChk_eq (k := 4) (by decide) (fun p => loadBlock64Chk'_eq (strict := strict) m)
    (compressBlockCChk_eq ops512' (by decide)) hlo hhi hs (arr s)
  exact ⟨h1.trans (congrArg (fun x => some (Arr.toList x)) (compress512'_eq m p n s)),
    h2.trans (congrArg (fun x => some (Arr.toList x)) (compress512Compact'_eq m p n s))⟩

/-- C61 (RISC-V, memory accesses). Whatever the address of the blocks, aligned or not, and although the object `r` holds nothing but
the blocks: every word read in Rust is aligned and inside the object, every word loaded in assembly is aligned and overlaps the block,
no index, assertion, subtraction or shift fails, and the result is that of FIPS 180-4. -/
theorem C61_riscv_accesses (s : V8 W32) (t : V8 W64) :
    (∀ xlen, xlen = 32 ∨ xlen = 64 →
      zknh256 m ⟨p, p + 64 * n⟩ p n false xlen s.toList = some ((blocksAt 64 m p n).foldl Spec.Sha256.compress s).toList ∧
      zknh256Compact m ⟨p, p + 64 * n⟩ p n false xlen s.toList = some ((blocksAt 64 m p n).foldl Spec.Sha256.compress s).toList) ∧
    (zknh512 m ⟨p, p + 128 * n⟩ p n false t.toList = some ((blocksAt 128 m p n).foldl Spec.Sha512.compress t).toList ∧
      zknh512Compact m ⟨p, p + 128 * n⟩ p n false t.toList = some ((blocksAt 128 m p n).foldl Spec.Sha512.compress t).toList) ∧
    zknh512' m ⟨p, p + 128 * n⟩ p n false t.toList = some ((blocksAt 128 m p n).foldl Spec.Sha512.compress t).toList ∧
      zknh512Compact' m ⟨p, p + 128 * n⟩ p n false t.toList = some ((blocksAt 128 m p n).foldl Spec.Sha512.compress t).toList :=
  ⟨fun _ hx => zknh256_eq _ _ _ _ _ (by omega) s (Nat.le_refl _) (Nat.le_refl _) nofun,
   zknh512_eq _ _ _ _ _ t (Nat.le_refl _) (Nat.le_refl _) nofun, zknh512'_eq _ _ _ _ _ t (Nat.le_refl _) (Nat.le_refl _) nofun⟩

/-- C61 (RISC-V, pages). A word that the assembly may load (`asmLoad`, 4 or 8 bytes) lies in one 4096-byte page, and that page
contains a byte of the block: the load cannot fault where reading the block does not. -/
theorem C61_riscv_pages (k a : Nat) (hn : 0 < n) (hk : k = 4 ∨ k = 8) (h : (asmLoad k p n a).isSome) :
    ∃ x, p ≤ x ∧ x < p + n ∧ ∀ b, a ≤ b → b < a + k → b / 4096 = x / 4096 := by
  unfold asmLoad Rs.check at h
  split at h
  · rename_i h
    refine ⟨max a p, by omega, by omega, fun b h1 h2 => ?_⟩
    rcases hk with rfl | rfl <;> omega
  · cases h

/-- C61 (RISC-V, pointer arithmetic; the full statement would not need the hypothesis on `r.lo`). As written, with `add`, all six
functions are defined if the object also contains the word boundary before the first block. -/
theorem C61_riscv_partial (s : V8 W32) (t : V8 W64) (hlo : r.lo ≤ p) :
    (p + 64 * n ≤ r.hi → r.lo ≤ p - p % 4 → ∀ xlen, xlen = 32 ∨ xlen = 64 →
      zknh256 m r p n true xlen s.toList = some ((blocksAt 64 m p n).foldl Spec.Sha256.compress s).toList ∧
      zknh256Compact m r p n true xlen s.toList = some ((blocksAt 64 m p n).foldl Spec.Sha256.compress s).toList) ∧
    (p + 128 * n ≤ r.hi → r.lo ≤ p - p % 8 →
      zknh512 m r p n true t.toList = some ((blocksAt 128 m p n).foldl Spec.Sha512.compress t).toList ∧
      zknh512Compact m r p n true t.toList = some ((blocksAt 128 m p n).foldl Spec.Sha512.compress t).toList) ∧
    (p + 128 * n ≤ r.hi → r.lo ≤ p - p % 4 →
      zknh512' m r p n true t.toList = some ((blocksAt 128 m p n).foldl Spec.Sha512.compress t).toList ∧
      zknh512Compact' m r p n true t.toList = some ((blocksAt 128 m p n).foldl Spec.Sha512.compress t).toList) :=
  ⟨fun hhi hs _ hx => zknh256_eq _ _ _ _ _ (by omega) s hlo hhi fun _ => hs,
   fun hhi hs => zknh512_eq _ _ _ _ _ t hlo hhi fun _ => hs, fun hhi hs => zknh512'_eq _ _ _ _ _ t hlo hhi fun _ => hs⟩

/-- C61 (RISC-V, negation). Otherwise they are not: `load_unaligned_block` applies `add`, whose precondition is that both ends are
inside the object, to a pointer that `wrapping_sub` has moved before the object.  Every call with at least one block that begins less
than a word after the start of its object at an unaligned address is undefined behaviour. -/
theorem C61_riscv_undefined (s : List W32) (t : List W64) (hn : 0 < n) :
    (p - p % 4 < r.lo → r.lo ≤ p → ∀ xlen, zknh256 m r p n true xlen s = none ∧ zknh256Compact m r p n true xlen s = none) ∧
    (p - p % 8 < r.lo → r.lo ≤ p → zknh512 m r p n true t = none ∧ zknh512Compact m r p n true t = none) ∧
    (p - p % 4 < r.lo → r.lo ≤ p → zknh512' m r p n true t = none ∧ zknh512Compact' m r p n true t = none) := by
  refine ⟨fun h hlo xlen => ?_, fun h hlo => ?_, fun h hlo => ?_⟩
  · have e : loadBlock32Chk true xlen m r p = none := loadChk_none (w := 32) (by decide) (by decide) Riscv.toBe m (by omega) h
    exact ⟨compressChk_none hn e s, compressChk_none hn e s⟩
  · have e : loadBlock64Chk true m r p = none := loadChk_none (w := 64) (by decide) (by decide) Riscv.toBe m (by omega) h
    exact ⟨compressChk_none hn e t, compressChk_none hn e t⟩
  · have e : loadBlock64Chk' true m r p = none := by
      rw [loadBlock64Chk', loadChk_none (w := 32) (by decide) (by decide) id m (by omega) h]; rfl
    exact ⟨compressChk_none hn e t, compressChk_none hn e t⟩

end Riscv

/-- One block in a 64-byte object at address 1001: undefined with `add`, the FIPS result with `wrapping_add`. -/
example : zknh256 (fun _ => 0) ⟨1001, 1065⟩ 1001 1 true 64 (V8.ofFn fun _ => 0).toList = none := by decide +kernel
example : (zknh256 (fun _ => 0) ⟨1001, 1065⟩ 1001 1 false 64 (V8.ofFn fun _ => 0).toList).isSome := by decide +kernel
/-- One byte further in the same object (a message buffer with one byte before the blocks) it is still undefined; with three not. -/
example : zknh256 (fun _ => 0) ⟨1001, 1066⟩ 1002 1 true 64 (V8.ofFn fun _ => 0).toList = none := by decide +kernel
example : (zknh256 (fun _ => 0) ⟨1001, 1069⟩ 1005 1 true 64 (V8.ofFn fun _ => 0).toList).isSome := by decide +kernel
/-- An object that ends one byte early is noticed. -/
example : zknh256 (fun _ => 0) ⟨1000, 1063⟩ 1000 1 false 64 (V8.ofFn fun _ => 0).toList = none := by decide +kernel
/-- The last word loaded for the block at 1001 begins at 1064: three of its bytes are behind the block. -/
example : asmLoad 4 1001 64 1064 = some () ∧ asmLoad 4 1001 64 1068 = none := by decide

end Hashes.Memory
