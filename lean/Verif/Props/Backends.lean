import Verif.Props.Sha2
import Verif.Props.Md
import Verif.Proof.Backends
import Verif.Proof.Sha256X86
import Verif.Proof.Sha1X86
import Verif.Proof.Sha1Arm
import Verif.Proof.Sha256Arm
import Verif.Proof.Sha512Arm
import Verif.Proof.Sha2Riscv
import Verif.Proof.Sha256Simd
import Verif.Proof.Sha512Simd
import Verif.Proof.Sha256Loong
import Verif.Proof.Sha512Loong
import Verif.Proof.Sha1Loong
import Verif.Proof.Md5Loong
import Verif.Proof.LoongCall
/-
C09: every backend of SHA-1, SHA-2 and MD5 computes the same compression function, so every build on every processor
computes the same digests.

`Runs… impl s blks s'` says that the call `compress(&mut state, blocks)` of that backend, with `*state = s`, may leave
`*state = s'`.  For the backends written with intrinsics this is a function of `s` and `blks`.  The RISC-V and LoongArch
backends read memory through pointers: there the call may happen in any memory that holds the blocks (and, for LoongArch,
any machine state in which state, blocks, round constants and stack do not overlap as the Rust references guarantee).
-/
namespace Hashes.Backends

def Runs256 : Impl256 → V8 W32 → List Bytes → V8 W32 → Prop
  | .soft, s, blks, s' => s' = Sha256.compressSoft s blks
  | .shani, s, blks, s' => s' = Sha256.X86.compress s blks
  | .arm, s, blks, s' => s' = Sha256.Arm.compress s blks
  | .wasm, s, blks, s' => s' = Sha2Simd.wasm256 s blks
  | .zknh xlen, s, blks, s' => ∃ m p, Sha2Riscv.blocksAt 64 m p blks.length = blks ∧
      Sha2Riscv.arr s' = Sha2Riscv.compress256 xlen m p blks.length (Sha2Riscv.arr s)
  | .zknhCompact xlen, s, blks, s' => ∃ m p, Sha2Riscv.blocksAt 64 m p blks.length = blks ∧
      Sha2Riscv.arr s' = Sha2Riscv.compress256Compact xlen m p blks.length (Sha2Riscv.arr s)
  | .loong, s, blks, s' => if blks = [] then s' = s else
      ∃ t, Sha256.Loong.Pre t s blks.length ∧ Loong.blocksAt 64 t.mem (t.reg .a1) blks.length = blks ∧
      ∃ fuel t', Sha256.Loong.asm fuel t = some t' ∧
        s' = V8.ofFn fun j => Loong.ld 32 t'.mem (t.reg .a0 + BitVec.ofNat 64 (4 * j))

def Runs512 : Impl512 → V8 W64 → List Bytes → V8 W64 → Prop
  | .soft, s, blks, s' => s' = Sha512.compressSoft s blks
  | .avx2, s, blks, s' => s' = Sha2Simd.avx2 s blks
  | .arm, s, blks, s' => s' = Sha512.Arm.compress s blks
  | .wasm, s, blks, s' => s' = Sha2Simd.wasm512 s blks
  | .zknh, s, blks, s' => ∃ m p, Sha2Riscv.blocksAt 128 m p blks.length = blks ∧
      Sha2Riscv.arr s' = Sha2Riscv.compress512 m p blks.length (Sha2Riscv.arr s)
  | .zknhCompact, s, blks, s' => ∃ m p, Sha2Riscv.blocksAt 128 m p blks.length = blks ∧
      Sha2Riscv.arr s' = Sha2Riscv.compress512Compact m p blks.length (Sha2Riscv.arr s)
  | .zknh32, s, blks, s' => ∃ m p, Sha2Riscv.blocksAt 128 m p blks.length = blks ∧
      Sha2Riscv.arr s' = Sha2Riscv.compress512' m p blks.length (Sha2Riscv.arr s)
  | .zknhCompact32, s, blks, s' => ∃ m p, Sha2Riscv.blocksAt 128 m p blks.length = blks ∧
      Sha2Riscv.arr s' = Sha2Riscv.compress512Compact' m p blks.length (Sha2Riscv.arr s)
  | .loong, s, blks, s' => if blks = [] then s' = s else
      ∃ t, Sha512.Loong.Pre t s blks.length ∧ Loong.blocksAt 128 t.mem (t.reg .a1) blks.length = blks ∧
      ∃ fuel t', Sha512.Loong.asm fuel t = some t' ∧
        s' = V8.ofFn fun j => Loong.ld 64 t'.mem (t.reg .a0 + BitVec.ofNat 64 (8 * j))

def Runs1 : Impl1 → V5 W32 → List Bytes → V5 W32 → Prop
  | .soft, s, blks, s' => s' = Sha1.compressSoft s blks
  | .shani, s, blks, s' => s' = Sha1.X86.compress s blks
  | .arm, s, blks, s' => s' = Sha1.Arm.compress s blks
  | .loong, s, blks, s' => if blks = [] then s' = s else
      ∃ t, Sha1.Loong.Pre t s blks.length ∧ Loong.blocksAt 64 t.mem (t.reg .a1) blks.length = blks ∧
      ∃ fuel t', Sha1.Loong.asm fuel t = some t' ∧
        s' = V5.ofFn fun j => Loong.ld 32 t'.mem (t.reg .a0 + BitVec.ofNat 64 (4 * j))

def RunsMd5 : ImplMd5 → V4 W32 → List Bytes → V4 W32 → Prop
  | .soft, s, blks, s' => s' = Md5.compress s blks
  | .loong, s, blks, s' => if blks = [] then s' = s else
      ∃ t, Md5.Loong.Pre t s blks.length ∧ Loong.blocksAt 64 t.mem (t.reg .a1) blks.length = blks ∧
      ∃ fuel t', Md5.Loong.asm fuel t = some t' ∧ s' = Md5.Loong.chain t'

theorem arr_inj {w : Nat} {s t : V8 (BitVec w)} (h : Sha2Riscv.arr s = Sha2Riscv.arr t) : s = t := by
  have h' := congrArg Subtype.val h
  simp only [Sha2Riscv.arr, V8.toList, List.cons.injEq, and_true] at h'
  obtain ⟨a, b, c, d, e, f, g, i⟩ := h'
  obtain ⟨_, _, _, _, _, _, _, _⟩ := s
  obtain ⟨_, _, _, _, _, _, _, _⟩ := t
  simp_all

theorem select256_xlen (b : Build) (c : Cpu) (x : Nat) (h : select256 b c = .zknh x ∨ select256 b c = .zknhCompact x) : 32 ≤ x := by
  unfold select256 at h
  rcases h with h | h <;> (repeat' split at h) <;> cases h <;> decide

/-- C09 (SHA-256). On every build and processor, compressing any blocks from any state gives the FIPS 180-4 result. -/
theorem C09_sha256 (b : Build) (c : Cpu) (s s' : V8 W32) (blks : List Bytes) (hb : ∀ x ∈ blks, x.length = 64)
    (h : Runs256 (select256 b c) s blks s') : s' = blks.foldl Spec.Sha256.compress s := by
  have hx := select256_xlen b c
  generalize select256 b c = impl at h hx
  cases impl with
  | soft => rw [h, Sha256.compressSoft_eq]
  | shani => rw [h, Sha256.X86.compress_eq _ _ hb]
  | arm => rw [h, Sha256.Arm.compress_eq _ _ hb]
  | wasm => rw [h, Sha2Simd.wasm256_eq _ _ hb]
  | zknh x =>
    obtain ⟨m, p, e, h⟩ := h
    rw [Sha2Riscv.compress256_eq (hx x (.inl rfl)), e] at h
    exact arr_inj h
  | zknhCompact x =>
    obtain ⟨m, p, e, h⟩ := h
    rw [Sha2Riscv.compress256Compact_eq (hx x (.inr rfl)), e] at h
    exact arr_inj h
  | loong =>
    simp only [Runs256] at h
    split at h
    · rename_i e; rw [h, e]; rfl
    · rename_i e
      obtain ⟨t, p, hblk, fuel, t', ha, hs⟩ := h
      obtain ⟨t2, h1, h2, -⟩ := Sha256.Loong.asm_eq p (List.length_pos_iff.2 e) (Nat.le_max_right fuel blks.length)
      have : t' = t2 := by
        rw [Sha256.Loong.asm] at ha h1
        obtain ⟨u, hu, rfl⟩ := Option.map_eq_some_iff.1 ha
        rw [Loong.loop_mono (Nat.le_max_left fuel blks.length) hu] at h1
        exact Option.some.inj h1
      rw [hs, this]
      simp only [hblk] at h2
      simp only [V8.ofFn, h2 0 (by decide), h2 1 (by decide), h2 2 (by decide), h2 3 (by decide), h2 4 (by decide), h2 5 (by decide), h2 6 (by decide),
        h2 7 (by decide), V8.get]

/-- C09 (SHA-512). -/
theorem C09_sha512 (impl : Impl512) (s s' : V8 W64) (blks : List Bytes) (hb : ∀ x ∈ blks, x.length = 128)
    (h : Runs512 impl s blks s') : s' = blks.foldl Spec.Sha512.compress s := by
  cases impl with
  | soft => rw [h, Sha512.compressSoft_eq]
  | avx2 => rw [h, Sha2Simd.avx2_eq _ _ hb]
  | arm => rw [h, Sha512.Arm.compress_eq _ _ hb]
  | wasm => rw [h, Sha2Simd.wasm512_eq _ _ hb]
  | zknh =>
    obtain ⟨m, p, e, h⟩ := h
    rw [Sha2Riscv.compress512_eq, e] at h
    exact arr_inj h
  | zknhCompact =>
    obtain ⟨m, p, e, h⟩ := h
    rw [Sha2Riscv.compress512Compact_eq, e] at h
    exact arr_inj h
  | zknh32 =>
    obtain ⟨m, p, e, h⟩ := h
    rw [Sha2Riscv.compress512'_eq, e] at h
    exact arr_inj h
  | zknhCompact32 =>
    obtain ⟨m, p, e, h⟩ := h
    rw [Sha2Riscv.compress512Compact'_eq, e] at h
    exact arr_inj h
  | loong =>
    simp only [Runs512] at h
    split at h
    · rename_i e; rw [h, e]; rfl
    · rename_i e
      obtain ⟨t, p, hblk, fuel, t', ha, hs⟩ := h
      obtain ⟨t2, h1, h2, -⟩ := Sha512.Loong.asm_eq p (List.length_pos_iff.2 e) (Nat.le_max_right fuel blks.length)
      have : t' = t2 := by
        rw [Sha512.Loong.asm] at ha h1
        obtain ⟨u, hu, rfl⟩ := Option.map_eq_some_iff.1 ha
        rw [Loong.loop_mono (Nat.le_max_left fuel blks.length) hu] at h1
        exact Option.some.inj h1
      rw [hs, this]
      simp only [hblk] at h2
      simp only [V8.ofFn, h2 0 (by decide), h2 1 (by decide), h2 2 (by decide), h2 3 (by decide), h2 4 (by decide), h2 5 (by decide), h2 6 (by decide),
        h2 7 (by decide), V8.get]

/-- C09 (SHA-1). -/
theorem C09_sha1 (impl : Impl1) (s s' : V5 W32) (blks : List Bytes) (hb : ∀ x ∈ blks, x.length = 64)
    (h : Runs1 impl s blks s') : s' = blks.foldl Spec.Sha1.compress s := by
  cases impl with
  | soft => rw [h, Sha1.compressSoft_eq]
  | shani => rw [h, Sha1.X86.compress_eq _ _ hb]
  | arm => rw [h, Sha1.Arm.compress_eq _ _ hb]
  | loong =>
    simp only [Runs1] at h
    split at h
    · rename_i e; rw [h, e]; rfl
    · rename_i e
      obtain ⟨t, p, hblk, fuel, t', ha, hs⟩ := h
      obtain ⟨t2, h1, h2, -⟩ := Sha1.Loong.asm_eq p (List.length_pos_iff.2 e) (Nat.le_max_right fuel blks.length)
      have : t' = t2 := by
        rw [Sha1.Loong.asm] at ha h1
        obtain ⟨u, hu, rfl⟩ := Option.map_eq_some_iff.1 ha
        rw [Loong.loop_mono (Nat.le_max_left fuel blks.length) hu] at h1
        exact Option.some.inj h1
      rw [hs, this]
      simp only [hblk] at h2
      simp only [V5.ofFn, h2 0 (by decide), h2 1 (by decide), h2 2 (by decide), h2 3 (by decide), h2 4 (by decide), V5.get]

/-- C09 (MD5). -/
theorem C09_md5 (impl : ImplMd5) (s s' : V4 W32) (blks : List Bytes)
    (h : RunsMd5 impl s blks s') : s' = blks.foldl Spec.Md5.compress s := by
  cases impl with
  | soft => rw [h, Md5.compress_eq]
  | loong =>
    simp only [RunsMd5] at h
    split at h
    · rename_i e; rw [h, e]; rfl
    · rename_i e
      obtain ⟨t, p, hblk, fuel, t', ha, hs⟩ := h
      obtain ⟨t2, h1, h2, -⟩ := Md5.Loong.asm_eq p (List.length_pos_iff.2 e) (Nat.le_max_right fuel blks.length)
      have : t' = t2 := by
        rw [Md5.Loong.asm] at ha h1
        obtain ⟨u, hu, rfl⟩ := Option.map_eq_some_iff.1 ha
        rw [Loong.loop_mono (Nat.le_max_left fuel blks.length) hu] at h1
        exact Option.some.inj h1
      rw [hs, this, h2, hblk]

/-! ### Every call returns -/

/-- A memory that holds `blks`. -/
theorem riscv_mem {bs : Nat} {blks : List Bytes} (hb : ∀ x ∈ blks, x.length = bs) :
    Sha2Riscv.blocksAt bs (fun i => blks.flatten.getD i 0) 0 blks.length = blks := by
  apply List.ext_getElem
  · simp [Sha2Riscv.blocksAt]
  · intro k h1 h2
    have hl := Loong.length_flatten hb
    have hk : bs * k + bs ≤ bs * blks.length := by rw [← Nat.mul_succ]; exact Nat.mul_le_mul_left _ h2
    rw [← Loong.flatten_block hb h2, ← Loong.map_getD_range _ _ _ (by omega)]
    simp only [Sha2Riscv.blocksAt, List.getElem_map, List.getElem_range, Sha2Riscv.bytesAt, Nat.zero_add]

/-- The registers at the call: K at 2^63, the state after the K table, the stack above. -/
def call (st sp : Nat) (blks : List Bytes) (other : Bytes) : Loong.St where
  reg := fun
    | .a0 => BitVec.ofNat 64 (2 ^ 63 + st)
    | .a1 => BitVec.ofNat 64 0
    | .a2 => BitVec.ofNat 64 blks.length
    | .a3 => BitVec.ofNat 64 (2 ^ 63)
    | .sp => BitVec.ofNat 64 (2 ^ 63 + sp)
    | _ => 0
  mem := Loong.layout blks other

theorem getD8 {w : Nat} (s : V8 (BitVec w)) {k : Nat} (hk : k < 8) : s.toList.getD k 0 = s.get k := by
  match k, hk with
  | 0, _ | 1, _ | 2, _ | 3, _ | 4, _ | 5, _ | 6, _ | 7, _ => rfl

theorem pre256 (s : V8 W32) {blks : List Bytes} (hn : 64 * blks.length ≤ maxLen) :
    Sha256.Loong.Pre (call 256 512 blks (bytesOfWordsLE (Sha256.K32 ++ s.toList))) s blks.length := by
  have hl : Sha256.K32.length = 64 := rfl
  have hs : s.toList.length = 8 := rfl
  have hsp : BitVec.ofNat 64 (2 ^ 63 + 512) + BitVec.ofInt 64 (-64) = BitVec.ofNat 64 (2 ^ 63 + 448) := by decide
  generalize hT : Sha256.K32 = T at hl
  rw [maxLen] at hn
  refine ⟨rfl, by omega, ?_, ?_, ?_, ?_, ?_, ?_, ?_⟩
  · intro k hk
    rw [← getD8 s hk]
    have := Loong.ld_state (w := 32) (by decide) blks T s.toList (by rw [hl, hs]; decide) (i := k) (by rwa [hs])
    rwa [hl] at this
  · intro k hk
    rw [Sha256.k32, hT]
    exact Loong.ld_table (w := 32) (by decide) blks T s.toList (by rw [hl, hs]; decide) (by rwa [hl])
  · exact Loong.disj_of_lt (by omega) (by omega)
  · simp only [call, hsp]; exact Loong.disj_of_lt (by omega) (by omega)
  · exact Loong.disj_of_lt (by omega) (by omega)
  · simp only [call, hsp]; exact Loong.disj_of_lt (by omega) (by omega)
  · simp only [call, hsp]; exact Loong.disj_of_lt (by omega) (by omega)

theorem pre512 (s : V8 W64) {blks : List Bytes} (hn : 128 * blks.length ≤ maxLen) :
    Sha512.Loong.Pre (call 640 1024 blks (bytesOfWordsLE (Sha512.K64 ++ s.toList))) s blks.length := by
  have hl : Sha512.K64.length = 80 := rfl
  have hs : s.toList.length = 8 := rfl
  have hsp : BitVec.ofNat 64 (2 ^ 63 + 1024) + BitVec.ofInt 64 (-128) = BitVec.ofNat 64 (2 ^ 63 + 896) := by decide
  generalize hT : Sha512.K64 = T at hl
  rw [maxLen] at hn
  refine ⟨rfl, by omega, ?_, ?_, ?_, ?_, ?_, ?_, ?_⟩
  · intro k hk
    rw [← getD8 s hk]
    have := Loong.ld_state (w := 64) (by decide) blks T s.toList (by rw [hl, hs]; decide) (i := k) (by rwa [hs])
    rwa [hl] at this
  · intro k hk
    rw [Sha512.k64, hT]
    exact Loong.ld_table (w := 64) (by decide) blks T s.toList (by rw [hl, hs]; decide) (by rwa [hl])
  · exact Loong.disj_of_lt (by omega) (by omega)
  · simp only [call, hsp]; exact Loong.disj_of_lt (by omega) (by omega)
  · exact Loong.disj_of_lt (by omega) (by omega)
  · simp only [call, hsp]; exact Loong.disj_of_lt (by omega) (by omega)
  · simp only [call, hsp]; exact Loong.disj_of_lt (by omega) (by omega)

theorem pre1 (s : V5 W32) {blks : List Bytes} (hn : 64 * blks.length ≤ maxLen) :
    Sha1.Loong.Pre { call 0 512 blks (bytesOfWordsLE s.toList) with
      reg := fun
        | .a4 => (Sha1.K 0).setWidth 64
        | .a5 => (Sha1.K 1).setWidth 64
        | .a6 => (Sha1.K 2).setWidth 64
        | .a7 => (Sha1.K 3).setWidth 64
        | r => (call 0 512 blks []).reg r } s blks.length := by
  have hs : s.toList.length = 5 := rfl
  have hsp : BitVec.ofNat 64 (2 ^ 63 + 512) + BitVec.ofInt 64 (-64) = BitVec.ofNat 64 (2 ^ 63 + 448) := by decide
  rw [maxLen] at hn
  refine ⟨rfl, by omega, ?_, ?_, ?_, ?_, ?_⟩
  rotate_left
  · intro q hq
    match q, hq with | 0, _ | 1, _ | 2, _ | 3, _ => rfl
  rotate_left 3
  · intro k hk
    have hg : s.toList.getD k 0 = s.get k := by match k, hk with | 0, _ | 1, _ | 2, _ | 3, _ | 4, _ => rfl
    rw [← hg]
    exact Loong.ld_state (w := 32) (by decide) blks [] s.toList (by rw [hs]; decide) (i := k) (by rwa [hs])
  · exact Loong.disj_of_lt (by omega) (by omega)
  · simp only [call, hsp]; exact Loong.disj_of_lt (by omega) (by omega)
  · simp only [call, hsp]; exact Loong.disj_of_lt (by omega) (by omega)

theorem preMd5 (s : V4 W32) {blks : List Bytes} (hn : 64 * blks.length ≤ maxLen) :
    Md5.Loong.Pre { call 0 512 blks (bytesOfWordsLE Md5.RC) with
      reg := fun
        | .a4 => s.x0.setWidth 64
        | .a5 => s.x1.setWidth 64
        | .a6 => s.x2.setWidth 64
        | .a7 => s.x3.setWidth 64
        | r => (call 0 512 blks []).reg r } s blks.length := by
  have hl : Md5.RC.length = 64 := rfl
  generalize hT : Md5.RC = T at hl
  rw [maxLen] at hn
  have hlo : ∀ x : W32, Loong.lo (x.setWidth 64) = x := by intro x; simp [Loong.lo]
  refine ⟨rfl, by omega, ?_, ?_⟩
  · simp only [Md5.Loong.chain, hlo]
  · intro k hk
    rw [Md5.rc, hT]
    have := Loong.ld_table (w := 32) (by decide) blks T [] (by rw [hl]; decide) (i := k) (by rwa [hl])
    rwa [List.append_nil] at this

/-- C09. Every backend returns, from any state and blocks. -/
theorem C09_sha256_returns (b : Build) (c : Cpu) (s : V8 W32) (blks : List Bytes) (hb : ∀ x ∈ blks, x.length = 64) (hn : 64 * blks.length ≤ maxLen) :
    ∃ s', Runs256 (select256 b c) s blks s' := by
  have hx := select256_xlen b c
  generalize select256 b c = impl at hx
  cases impl with
  | soft | shani | arm | wasm => exact ⟨_, rfl⟩
  | zknh x => exact ⟨_, _, _, riscv_mem hb, (Sha2Riscv.compress256_eq (hx x (.inl rfl)) ..).symm⟩
  | zknhCompact x => exact ⟨_, _, _, riscv_mem hb, (Sha2Riscv.compress256Compact_eq (hx x (.inr rfl)) ..).symm⟩
  | loong =>
    simp only [Runs256]
    split
    · exact ⟨_, rfl⟩
    · rename_i e
      obtain ⟨t, h, -⟩ := Sha256.Loong.asm_eq (pre256 s hn) (List.length_pos_iff.2 e) (Nat.le_refl _)
      exact ⟨_, _, pre256 s hn, Loong.blocksAt_layout hb (by rw [maxLen] at hn; omega) _, _, _, h, rfl⟩

/-- C09. -/
theorem C09_sha512_returns (impl : Impl512) (s : V8 W64) (blks : List Bytes) (hb : ∀ x ∈ blks, x.length = 128) (hn : 128 * blks.length ≤ maxLen) :
    ∃ s', Runs512 impl s blks s' := by
  cases impl with
  | soft | avx2 | arm | wasm => exact ⟨_, rfl⟩
  | zknh => exact ⟨_, _, _, riscv_mem hb, (Sha2Riscv.compress512_eq ..).symm⟩
  | zknhCompact => exact ⟨_, _, _, riscv_mem hb, (Sha2Riscv.compress512Compact_eq ..).symm⟩
  | zknh32 => exact ⟨_, _, _, riscv_mem hb, (Sha2Riscv.compress512'_eq ..).symm⟩
  | zknhCompact32 => exact ⟨_, _, _, riscv_mem hb, (Sha2Riscv.compress512Compact'_eq ..).symm⟩
  | loong =>
    simp only [Runs512]
    split
    · exact ⟨_, rfl⟩
    · rename_i e
      obtain ⟨t, h, -⟩ := Sha512.Loong.asm_eq (pre512 s hn) (List.length_pos_iff.2 e) (Nat.le_refl _)
      exact ⟨_, _, pre512 s hn, Loong.blocksAt_layout hb (by rw [maxLen] at hn; omega) _, _, _, h, rfl⟩

/-- C09. -/
theorem C09_sha1_returns (impl : Impl1) (s : V5 W32) (blks : List Bytes) (hb : ∀ x ∈ blks, x.length = 64) (hn : 64 * blks.length ≤ maxLen) :
    ∃ s', Runs1 impl s blks s' := by
  cases impl with
  | soft | shani | arm => exact ⟨_, rfl⟩
  | loong =>
    simp only [Runs1]
    split
    · exact ⟨_, rfl⟩
    · rename_i e
      obtain ⟨t, h, -⟩ := Sha1.Loong.asm_eq (pre1 s hn) (List.length_pos_iff.2 e) (Nat.le_refl _)
      exact ⟨_, _, pre1 s hn, Loong.blocksAt_layout hb (by rw [maxLen] at hn; omega) _, _, _, h, rfl⟩

/-- C09. -/
theorem C09_md5_returns (impl : ImplMd5) (s : V4 W32) (blks : List Bytes) (hb : ∀ x ∈ blks, x.length = 64) (hn : 64 * blks.length ≤ maxLen) :
    ∃ s', RunsMd5 impl s blks s' := by
  cases impl with
  | soft => exact ⟨_, rfl⟩
  | loong =>
    simp only [RunsMd5]
    split
    · exact ⟨_, rfl⟩
    · rename_i e
      obtain ⟨t, h, -⟩ := Md5.Loong.asm_eq (preMd5 s hn) (List.length_pos_iff.2 e) (Nat.le_refl _)
      exact ⟨_, _, preMd5 s hn, Loong.blocksAt_layout hb (by rw [maxLen] at hn; omega) _, _, _, h, rfl⟩

/-! ### Digests -/

/-- C09. `comp` is what the backend of this build on this processor computes, on any slice of whole blocks that fits the address space:
then `Sha256` is SHA-256. -/
theorem C09_sha256_digest (b : Build) (c : Cpu) (comp : V8 W32 → List Bytes → V8 W32)
    (h : ∀ s blks, (∀ x ∈ blks, x.length = 64) → 64 * blks.length ≤ maxLen → Runs256 (select256 b c) s blks (comp s blks))
    (l : List Bytes) (hl : ∀ x ∈ l, x.length ≤ maxLen) :
    let H := (core256 comp).ctWith 32 ⟨Sha256.H256_256, 0⟩
    H.finish (H.updates H.new l) = Spec.Sha256.sha256 l.flatten := by
  rw [← C06_sha256]
  exact digest256 comp (fun s blks hb hn => by rw [C09_sha256 b c _ _ _ hb (h s blks hb hn), Sha256.compressSoft_eq]) _ _ l hl

/-- C09. `Sha224`. -/
theorem C09_sha224_digest (b : Build) (c : Cpu) (comp : V8 W32 → List Bytes → V8 W32)
    (h : ∀ s blks, (∀ x ∈ blks, x.length = 64) → 64 * blks.length ≤ maxLen → Runs256 (select256 b c) s blks (comp s blks))
    (l : List Bytes) (hl : ∀ x ∈ l, x.length ≤ maxLen) :
    let H := (core256 comp).ctWith 28 ⟨Sha256.H256_224, 0⟩
    H.finish (H.updates H.new l) = Spec.Sha256.sha224 l.flatten := by
  rw [← C06_sha224]
  exact digest256 comp (fun s blks hb hn => by rw [C09_sha256 b c _ _ _ hb (h s blks hb hn), Sha256.compressSoft_eq]) _ _ l hl

/-- C09. `Sha512`. -/
theorem C09_sha512_digest (b : Build) (c : Cpu) (comp : V8 W64 → List Bytes → V8 W64)
    (h : ∀ s blks, (∀ x ∈ blks, x.length = 128) → 128 * blks.length ≤ maxLen → Runs512 (select512 b c) s blks (comp s blks))
    (l : List Bytes) (hl : ∀ x ∈ l, x.length ≤ maxLen) :
    let H := (core512 comp).ctWith 64 ⟨Sha512.H512_512, 0⟩
    H.finish (H.updates H.new l) = Spec.Sha512.sha512 l.flatten := by
  rw [← C07_sha512]
  exact digest512 comp (fun s blks hb hn => by rw [C09_sha512 _ _ _ _ hb (h s blks hb hn), Sha512.compressSoft_eq]) _ _ l hl

/-- C09. `Sha384`. -/
theorem C09_sha384_digest (b : Build) (c : Cpu) (comp : V8 W64 → List Bytes → V8 W64)
    (h : ∀ s blks, (∀ x ∈ blks, x.length = 128) → 128 * blks.length ≤ maxLen → Runs512 (select512 b c) s blks (comp s blks))
    (l : List Bytes) (hl : ∀ x ∈ l, x.length ≤ maxLen) :
    let H := (core512 comp).ctWith 48 ⟨Sha512.H512_384, 0⟩
    H.finish (H.updates H.new l) = Spec.Sha512.sha384 l.flatten := by
  rw [← C07_sha384]
  exact digest512 comp (fun s blks hb hn => by rw [C09_sha512 _ _ _ _ hb (h s blks hb hn), Sha512.compressSoft_eq]) _ _ l hl

/-- C09. `Sha512_256`. -/
theorem C09_sha512_256_digest (b : Build) (c : Cpu) (comp : V8 W64 → List Bytes → V8 W64)
    (h : ∀ s blks, (∀ x ∈ blks, x.length = 128) → 128 * blks.length ≤ maxLen → Runs512 (select512 b c) s blks (comp s blks))
    (l : List Bytes) (hl : ∀ x ∈ l, x.length ≤ maxLen) :
    let H := (core512 comp).ctWith 32 ⟨Sha512.H512_256, 0⟩
    H.finish (H.updates H.new l) = Spec.Sha512.sha512_256 l.flatten := by
  rw [← C07_sha512_256]
  exact digest512 comp (fun s blks hb hn => by rw [C09_sha512 _ _ _ _ hb (h s blks hb hn), Sha512.compressSoft_eq]) _ _ l hl

/-- C09. `Sha512_224`. -/
theorem C09_sha512_224_digest (b : Build) (c : Cpu) (comp : V8 W64 → List Bytes → V8 W64)
    (h : ∀ s blks, (∀ x ∈ blks, x.length = 128) → 128 * blks.length ≤ maxLen → Runs512 (select512 b c) s blks (comp s blks))
    (l : List Bytes) (hl : ∀ x ∈ l, x.length ≤ maxLen) :
    let H := (core512 comp).ctWith 28 ⟨Sha512.H512_224, 0⟩
    H.finish (H.updates H.new l) = Spec.Sha512.sha512_224 l.flatten := by
  rw [← C07_sha512_224]
  exact digest512 comp (fun s blks hb hn => by rw [C09_sha512 _ _ _ _ hb (h s blks hb hn), Sha512.compressSoft_eq]) _ _ l hl

/-- C09. `Sha1`. -/
theorem C09_sha1_digest (b : Build) (c : Cpu) (comp : V5 W32 → List Bytes → V5 W32)
    (h : ∀ s blks, (∀ x ∈ blks, x.length = 64) → 64 * blks.length ≤ maxLen → Runs1 (select1 b c) s blks (comp s blks))
    (l : List Bytes) (hl : ∀ x ∈ l, x.length ≤ maxLen) :
    (core1 comp).finish ((core1 comp).updates (core1 comp).new l) = Spec.Sha1.sha1 l.flatten := by
  rw [← C08_sha1]
  exact digest1 comp (fun s blks hb hn => by rw [C09_sha1 _ _ _ _ hb (h s blks hb hn), Sha1.compressSoft_eq]) l hl

/-- C09. `Md5`. -/
theorem C09_md5_digest (b : Build) (comp : V4 W32 → List Bytes → V4 W32)
    (h : ∀ s blks, (∀ x ∈ blks, x.length = 64) → 64 * blks.length ≤ maxLen → RunsMd5 (selectMd5 b) s blks (comp s blks))
    (l : List Bytes) (hl : ∀ x ∈ l, x.length ≤ maxLen) :
    (coreMd5 comp).finish ((coreMd5 comp).updates (coreMd5 comp).new l) = Spec.Md5.md5 l.flatten := by
  rw [← C10_md5]
  exact digestMd5 comp (fun s blks hb hn => by rw [C09_md5 _ _ _ _ (h s blks hb hn), Md5.compress_eq]) l hl

/-! ### Concrete cases -/

/-- An x86 build: the processor decides. -/
example : select256 ⟨.x86, .unset, false, false⟩ ⟨true, false, false, false⟩ = .shani ∧
    select256 ⟨.x86, .unset, false, false⟩ ⟨false, false, false, false⟩ = .soft ∧
    select256 ⟨.riscv32, .riscvZknh, false, false⟩ ⟨false, false, false, false⟩ = .zknh 32 := by decide

/-- The software cores are the instances with `compressSoft`. -/
example : (core256 Sha256.compressSoft).ctWith 32 ⟨Sha256.H256_256, 0⟩ = Sha256.sha256 := rfl
example : core1 Sha1.compressSoft = Sha1.sha1 := rfl

/-- The padded block of "abc" through the x86 instructions. -/
example : Sha256.X86.compress ⟨0x6a09e667, 0xbb67ae85, 0x3c6ef372, 0xa54ff53a, 0x510e527f, 0x9b05688c, 0x1f83d9ab, 0x5be0cd19⟩
    [[0x61, 0x62, 0x63, 0x80] ++ List.replicate 59 0 ++ [0x18]] =
    ⟨0xba7816bf, 0x8f01cfea, 0x414140de, 0x5dae2223, 0xb00361a3, 0x96177a9c, 0xb410ff61, 0xf20015ad⟩ := by decide +kernel

/-- The padded block of "abc" through the LoongArch instructions. -/
example : (Md5.Loong.asm 1 { call 0 512 [[0x61, 0x62, 0x63, 0x80] ++ List.replicate 52 0 ++ [0x18, 0, 0, 0, 0, 0, 0, 0]] (bytesOfWordsLE Md5.RC) with
      reg := fun
        | .a4 => 0x67452301 | .a5 => 0xefcdab89 | .a6 => 0x98badcfe | .a7 => 0x10325476
        | r => (call 0 512 [[]] []).reg r }).map Md5.Loong.chain =
    some ⟨0x98500190, 0xb04fd23c, 0x7d3f96d6, 0x727fe128⟩ := by decide +kernel

end Hashes.Backends
