import Verif.Model.VarCore
import Verif.Model.Sha256
import Verif.Model.Sha512
import Verif.Model.Sha1
import Verif.Model.Md2
import Verif.Model.Md4
import Verif.Model.Md5
import Verif.Model.Ripemd
import Verif.Model.Sm3
import Verif.Model.K12
import Verif.Model.Blake2
import Verif.Model.Tiger
import Verif.Model.Whirlpool
import Verif.Model.Groestl
import Verif.Model.Kupyna
import Verif.Model.Streebog
import Verif.Model.Gost94
import Verif.Model.Jh
import Verif.Model.Shabal
import Verif.Model.Belt
import Verif.Model.Skein
import Verif.Model.Fsb
import Verif.Model.Sha1Checked
/-
What is left in a value's own memory after its `Drop` glue has run, with the `zeroize` feature on.

A value's memory is the list of its fields' cells (`Mem.cells`).  `Zeroize` is the trait of the external crate `zeroize`
(trusted: `x.zeroize()` overwrites `x` with zeros).  `Droppable.drop` is the memory image after the type's `Drop::drop`
followed by the drop glue of its fields; fields that nothing zeroizes keep their content.  Not modelled: copies the compiler
leaves in registers, spilled stack slots or moved-from locations, and padding bytes.
-/
namespace Hashes

/-- The cells of a value: one list of numbers per elementary field. -/
class Mem (α : Type) where
  cells : α → List (List Nat)

/-- `zeroize::Zeroize` (external crate, trusted): overwrite in place, keeping array lengths. -/
class Zeroize (α : Type) where
  zeroize : α → α

export Mem (cells)
export Zeroize (zeroize)

/-- A type with drop glue. -/
class Droppable (α : Type) extends Mem α where
  drop : α → α

instance (w : Nat) : Mem (BitVec w) := ⟨fun x => [[x.toNat]]⟩
instance (w : Nat) : Zeroize (BitVec w) := ⟨fun _ => 0⟩
/-- `usize` (modelled as `Nat`). -/
instance : Mem Nat := ⟨fun x => [[x]]⟩
instance : Zeroize Nat := ⟨fun _ => 0⟩
instance : Mem Bool := ⟨fun x => [[x.toNat]]⟩
/-- `[uN; k]` modelled as a list of its elements. -/
instance (w : Nat) : Mem (List (BitVec w)) := ⟨fun l => [l.map BitVec.toNat]⟩
instance (w : Nat) : Zeroize (List (BitVec w)) := ⟨fun l => List.replicate l.length 0⟩
instance (w n : Nat) : Mem (Arr w n) := ⟨fun a => [a.1.map BitVec.toNat]⟩
instance (w n : Nat) : Zeroize (Arr w n) := ⟨fun a => ⟨List.replicate a.1.length 0, by simp [a.2]⟩⟩

instance {α : Type} [Mem α] : Mem (V2 α) := ⟨fun v => cells v.x0 ++ cells v.x1⟩
instance {α : Type} [Zeroize α] : Zeroize (V2 α) := ⟨fun v => ⟨zeroize v.x0, zeroize v.x1⟩⟩
instance : Mem Tiger.V3 := ⟨fun v => cells v.x0 ++ cells v.x1 ++ cells v.x2⟩
instance : Zeroize Tiger.V3 := ⟨fun v => ⟨zeroize v.x0, zeroize v.x1, zeroize v.x2⟩⟩
/-- Also `Simd4`, /repo/blake2/src/simd/simdty.rs:56-64. -/
instance {α : Type} [Mem α] : Mem (V4 α) := ⟨fun v => cells v.x0 ++ cells v.x1 ++ cells v.x2 ++ cells v.x3⟩
instance {α : Type} [Zeroize α] : Zeroize (V4 α) := ⟨fun v => ⟨zeroize v.x0, zeroize v.x1, zeroize v.x2, zeroize v.x3⟩⟩
instance {α : Type} [Mem α] : Mem (V5 α) :=
  ⟨fun v => cells v.x0 ++ cells v.x1 ++ cells v.x2 ++ cells v.x3 ++ cells v.x4⟩
instance {α : Type} [Zeroize α] : Zeroize (V5 α) :=
  ⟨fun v => ⟨zeroize v.x0, zeroize v.x1, zeroize v.x2, zeroize v.x3, zeroize v.x4⟩⟩
instance {α : Type} [Mem α] : Mem (V8 α) :=
  ⟨fun v => cells v.x0 ++ cells v.x1 ++ cells v.x2 ++ cells v.x3 ++ cells v.x4 ++ cells v.x5 ++ cells v.x6 ++ cells v.x7⟩
instance {α : Type} [Zeroize α] : Zeroize (V8 α) :=
  ⟨fun v => ⟨zeroize v.x0, zeroize v.x1, zeroize v.x2, zeroize v.x3, zeroize v.x4, zeroize v.x5, zeroize v.x6, zeroize v.x7⟩⟩

/-- `BlockBuffer`'s own `Zeroize` (external crate block-buffer, trusted): data array and cursor. -/
instance : Mem BlockBuffer := ⟨fun b => cells b.pos ++ cells b.data⟩
instance : Zeroize BlockBuffer := ⟨fun b => ⟨zeroize b.data, zeroize b.pos⟩⟩

/-- `Drop for CoreWrapper` (external crate digest, trusted): `self.buffer.zeroize()`, then the core's drop glue. -/
instance {σ : Type} [Droppable σ] : Droppable (Hasher σ) where
  cells h := cells h.buf ++ cells h.core
  drop h := ⟨Droppable.drop h.core, zeroize h.buf⟩

/-- `Drop for XofReaderCoreWrapper` (external crate digest, trusted), same shape. -/
instance {ρ : Type} [Droppable ρ] : Droppable (Reader ρ) where
  cells h := cells h.pos ++ cells h.buf ++ cells h.core
  drop h := ⟨Droppable.drop h.core, zeroize h.buf, zeroize h.pos⟩

/-- /repo/sha2/src/core_api.rs:91-99 -/
instance : Droppable Sha256.State where
  cells s := cells s.state ++ cells s.blockLen
  drop s := { s with state := zeroize s.state, blockLen := zeroize s.blockLen }

/-- /repo/sha2/src/core_api.rs:209-217 -/
instance : Droppable Sha512.State where
  cells s := cells s.state ++ cells s.blockLen
  drop s := { s with state := zeroize s.state, blockLen := zeroize s.blockLen }

/-- /repo/sha1/src/lib.rs:121-129 -/
instance : Droppable Sha1.State where
  cells s := cells s.h ++ cells s.blockLen
  drop s := { s with h := zeroize s.h, blockLen := zeroize s.blockLen }

/-- /repo/md2/src/lib.rs:143-151 -/
instance : Droppable Md2.State where
  cells s := cells s.x ++ cells s.checksum
  drop s := { s with x := zeroize s.x, checksum := zeroize s.checksum }

/-- /repo/md4/src/lib.rs:126-134 -/
instance : Droppable Md4.State where
  cells s := cells s.blockLen ++ cells s.state
  drop s := { s with state := zeroize s.state, blockLen := zeroize s.blockLen }

/-- /repo/md5/src/lib.rs:118-126 -/
instance : Droppable Md5.State where
  cells s := cells s.blockLen ++ cells s.state
  drop s := { s with state := zeroize s.state, blockLen := zeroize s.blockLen }

/-- /repo/ripemd/src/lib.rs:123-131 -/
instance {α : Type} [Mem α] [Zeroize α] : Droppable (Ripemd.State α) where
  cells s := cells s.h ++ cells s.blockLen
  drop s := { s with h := zeroize s.h, blockLen := zeroize s.blockLen }

/-- /repo/sm3/src/lib.rs:108-116 -/
instance : Droppable Sm3.State where
  cells s := cells s.blockLen ++ cells s.h
  drop s := { s with h := zeroize s.h, blockLen := zeroize s.blockLen }

/-- The Keccak, SHA-3 and SHAKE cores and all readers, whose only field is `state: Sha3State`:
/repo/sha3/src/macros.rs:85-92, 225-232, 264-271, 425-432, 629-636. -/
instance : Droppable Sha3.Lanes where
  drop s := zeroize s

/-- TurboSHAKE cores, /repo/sha3/src/macros.rs:385-393 -/
instance : Droppable Sha3.Turbo where
  cells s := cells s.state ++ cells s.domain
  drop s := { s with state := zeroize s.state, domain := zeroize s.domain }

/-- cSHAKE cores, /repo/sha3/src/macros.rs:587-597 -/
instance : Droppable Sha3.CShake where
  cells s := cells s.padding ++ cells s.initialState ++ cells s.state
  drop s := { s with state := zeroize s.state, padding := zeroize s.padding, initialState := zeroize s.initialState }

/-- /repo/k12/src/lib.rs:188-198.  `customization: &'cs [u8]` is a borrow: the bytes are not the hasher's memory. -/
instance : Droppable K12.State where
  cells s := cells s.buffer ++ cells s.bufpos ++ cells s.chainLength ++ cells s.finalT ++ cells s.chainT
  drop s := { s with buffer := zeroize s.buffer, bufpos := zeroize s.bufpos, chainLength := zeroize s.chainLength,
                     finalT := Droppable.drop s.finalT, chainT := Droppable.drop s.chainT }

/-- /repo/tiger/src/lib.rs:164-173 -/
instance : Droppable Tiger.State where
  cells s := cells s.blockLen ++ cells s.state
  drop s := { s with state := zeroize s.state, blockLen := zeroize s.blockLen }

/-- /repo/whirlpool/src/lib.rs:140-148 -/
instance : Droppable Whirlpool.State where
  cells s := cells s.bitLen ++ cells s.state
  drop s := { s with state := zeroize s.state, bitLen := zeroize s.bitLen }

/-- /repo/groestl/src/lib.rs:121-129 and 252-260 -/
instance (n : Nat) : Droppable (Groestl.State n) where
  cells s := cells s.state ++ cells s.blocksLen
  drop s := { s with state := zeroize s.state, blocksLen := zeroize s.blocksLen }

/-- /repo/kupyna/src/short.rs:112-121 and long.rs:114-123 -/
instance (n : Nat) : Droppable (Kupyna.State n) where
  cells s := cells s.state ++ cells s.blocksLen
  drop s := { s with state := zeroize s.state, blocksLen := zeroize s.blocksLen }

/-- /repo/streebog/src/core_api.rs:158-167 -/
instance : Droppable Streebog.State where
  cells s := cells s.h ++ cells s.n ++ cells s.sigma
  drop s := { s with h := zeroize s.h, n := zeroize s.n, sigma := zeroize s.sigma }

/-- /repo/gost94/src/gost94_core.rs:282-291 -/
instance : Droppable Gost94.State where
  cells s := cells s.h ++ cells s.n ++ cells s.sigma
  drop s := { s with h := zeroize s.h, n := zeroize s.n, sigma := zeroize s.sigma }

/-- /repo/jh/src/lib.rs:121-134; the `Compressor` is overwritten with `write_volatile` of zero bytes. -/
instance : Droppable Jh.State where
  cells s := cells s.state ++ cells s.blockLen
  drop s := { s with state := zeroize s.state, blockLen := zeroize s.blockLen }

/-- /repo/shabal/src/core_api.rs:249-259 -/
instance : Droppable Shabal.State where
  cells s := cells s.a ++ cells s.b ++ cells s.c ++ cells s.w
  drop s := { s with a := zeroize s.a, b := zeroize s.b, c := zeroize s.c, w := zeroize s.w }

/-- /repo/belt-hash/src/lib.rs:142-151 -/
instance : Droppable Belt.State where
  cells s := cells s.r ++ cells s.s ++ cells s.h
  drop s := { s with r := zeroize s.r, s := zeroize s.s, h := zeroize s.h }

/-- /repo/skein/src/lib.rs:176-184 -/
instance (n : Nat) : Droppable (Skein.State n) where
  cells s := cells s.t0 ++ cells s.t1 ++ cells s.x
  drop s := { s with t0 := zeroize s.t0, t1 := zeroize s.t1, x := zeroize s.x }

/-- /repo/fsb/src/macros.rs:85-93.  (`state` is `none` in the model only where the Rust code would have panicked.) -/
instance : Droppable Fsb.State where
  cells s := cells s.blocksLen ++ (match s.state with | some b => cells b | none => [])
  drop s := { s with state := s.state.map zeroize, blocksLen := zeroize s.blocksLen }

/-- `Blake2bVarCore`/`Blake2sVarCore`, /repo/blake2/src/macros.rs:250-258: `h` and `t`, not `h0`. -/
instance (w : Nat) : Droppable (Blake2.State w) where
  cells s := cells s.h ++ cells s.t ++ cells s.h0
  drop s := { s with h := zeroize s.h, t := zeroize s.t }

/-- `Blake2bMac`/`Blake2sMac`, /repo/blake2/src/macros.rs:464-480: the buffer, then `core`'s drop glue.  The statement
`if let Some(mut key_block) = self.key_block { key_block.zeroize(); }` (:475-477) binds a *copy* of the `Copy` array and
zeroizes that, so `self.key_block` keeps its content. -/
instance (w : Nat) : Droppable (Blake2.Mac w) where
  cells m := cells m.buffer ++ cells m.core ++ (match m.keyBlock with | some k => cells k | none => [])
  drop m :=
    let _copy := m.keyBlock.map zeroize
    { m with buffer := zeroize m.buffer, core := Droppable.drop m.core }

/-- `DetectionState`, /repo/sha1-checked/src/lib.rs:224-237. -/
instance : Droppable Sha1Checked.Detection where
  cells d := cells d.safeHash ++ cells d.ubcCheck ++ cells d.reducedRoundCollision ++ cells d.foundCollision ++
    cells d.ihv1 ++ cells d.ihv2 ++ cells d.m1 ++ cells d.m2 ++ cells d.state58 ++ cells d.state65
  drop d := { d with ihv1 := zeroize d.ihv1, ihv2 := zeroize d.ihv2, m1 := zeroize d.m1, m2 := zeroize d.m2,
                     state58 := zeroize d.state58, state65 := zeroize d.state65 }

/-- `sha1_checked::Sha1` (fields other than the buffer), /repo/sha1-checked/src/lib.rs:47-53: the type is marked
`ZeroizeOnDrop` (:222) but has no `Drop`; only the drop glue of `detection` runs. -/
instance : Droppable Sha1Checked.State where
  cells s := cells s.h ++ cells s.blockLen ++ (match s.detection with | some d => cells d | none => [])
  drop s := { s with detection := s.detection.map Droppable.drop }

end Hashes
