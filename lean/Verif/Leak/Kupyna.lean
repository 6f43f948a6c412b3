import Verif.Base.Leak
import Verif.Checked.Kupyna
/- Kupyna with what an observer of the memory accesses and branches sees (Base/Leak.lean); written by tools/gen_leak.py from
Verif/Checked/Kupyna.lean, which says what is modelled. -/
namespace Hashes.Kupyna
open Leak
/-- `m[a][b]` -/
def at2L (m : Matrix) (a b : Nat) : Leak Byte := do idx (← idx m a) b
/-- `m[a][b] = v` -/
def upd2L (m : Matrix) (a b : Nat) (v : Byte) : Leak Matrix := do upd m a (← upd (← idx m a) b v)

/-- `multiply_gf`, utils.rs:3-22 -/
def multiplyGfL (x y : Byte) : Leak Byte := do
  let s ← loop 8 (x, y, (0 : Byte)) fun s _ => do
    let r ← branch (s.2.1 &&& 1 = 1) (pure (s.2.2 ^^^ s.1)) (pure s.2.2)
    let hbit ← shr (s.1 &&& 0x80) 7
    let x ← shl s.1 1
    let x ← branch (hbit = 1) (pure (x ^^^ 0x1d)) (pure x)
    let y ← shr s.2.1 1
    pure (x, y, r)
  pure s.2.2

/-- `mix_columns`, utils.rs:25-39 -/
def mixColumnsL (n : Nat) (state : Matrix) : Leak Matrix :=
  loop n (List.replicate n (List.replicate 8 (0 : Byte))) fun result col => loop 8 result fun result row => do
    let product ← loop 8 (0 : Byte) fun product b => do
      pure (product ^^^ (← multiplyGfL (← at2L state col b) (← at2L MDS_MATRIX row b)))
    upd2L result col row product

/-- `apply_s_box`, utils.rs:41-48 -/
def applySBoxL (state : Matrix) : Leak Matrix :=
  loop 8 state fun state i => state.mapM fun row => do
    upd row i (← idx (← idx SBOXES (i % 4)) (← idx row i).toNat)

/-- `add_constant_xor`, utils.rs:50-59 -/
def addConstantXorL (n : Nat) (state : Matrix) (round : Nat) : Leak Matrix :=
  loop n state fun state j => do
    let row ← idx state j
    let constant : Byte := BitVec.ofNat 8 ((j * 0x10) ^^^ round)
    upd state j (← upd row 0 ((← idx row 0) ^^^ constant))

/-- `add_constant_plus`, utils.rs:61-72 -/
def addConstantPlusL (n : Nat) (state : Matrix) (round : Nat) : Leak Matrix :=
  loop n state fun state j => do
    let row ← idx state j
    let r ← fromLe 64 row
    let k := ((← usub (← usub n j) 1) * 0x10) ^^^ round
    let r := r + ((0x00F0F0F0F0F0F0F3 : W64) ^^^ (← shl (BitVec.ofNat 64 k) 56))
    upd state j (← copy row 0 8 (leBytes 8 r.toNat))

/-- `block_to_matrix`, short_compress.rs:38-49 -/
def blockToMatrixL (n : Nat) (block : Bytes) : Leak Matrix :=
  loop n (List.replicate n (List.replicate 8 (0 : Byte))) fun m i => loop 8 m fun m j => do upd2L m i j (← idx block (i * 8 + j))

/-- `matrix_to_block`, short_compress.rs:51-62 -/
def matrixToBlockL (n : Nat) (m : Matrix) : Leak Bytes :=
  loop n (List.replicate (n * 8) (0 : Byte)) fun block i => loop 8 block fun block j => do upd block (i * 8 + j) (← at2L m i j)

/-- `shift += 1` on `i32` -/
def incI32L (s : Int) : Leak Int := seen (Kupyna.incI32 s)
/-- `col + shift as usize`: a negative `i32` becomes a number near 2^64, and the sum overflows. -/
def addShiftL (col : Nat) (s : Int) : Leak Nat := seen (Kupyna.addShift col s)

/-- `if i == cols - 1 { shift = L } else { shift += 1 }`, short_compress.rs:71-75 (`L = 7`), long_compress.rs:71-75 (`L = 11`) -/
def nextShiftL (g : Cfg) (i : Nat) (s : Int) : Leak Int := do
  branch (i = (← usub 8 1)) (pure (g.lastShift : Int)) (incI32L s)

/-- Loop body of `rotate_rows`, short_compress.rs:70-82, on `(state, temp, shift)` -/
def rotateL (g : Cfg) (st : Matrix × Bytes × Int) (i : Nat) : Leak (Matrix × Bytes × Int) := do
  let shift ← nextShiftL g i st.2.2
  let temp ← loop g.cols st.2.1 fun temp col => do
    upd temp ((← addShiftL col shift) % g.cols) (← at2L st.1 col i)
  let state ← loop g.cols st.1 fun state col => do upd2L state col i (← idx temp col)
  pure (state, temp, shift)

/-- `rotate_rows`, short_compress.rs:64-84, long_compress.rs:64-84 -/
def rotateRowsL (g : Cfg) (state : Matrix) : Leak Matrix := do
  let st ← loop 8 (state, List.replicate g.cols (0 : Byte), -1) (rotateL g)
  pure st.1

/-- `t_plus_l`, short_compress.rs:27-36 -/
def tPlusL (g : Cfg) (block : Bytes) : Leak Bytes := do
  let state ← blockToMatrixL g.cols block
  let state ← loop g.rounds state fun state nu => do
    let state ← addConstantPlusL g.cols state nu
    let state ← applySBoxL state
    let state ← rotateRowsL g state
    mixColumnsL g.cols state
  matrixToBlockL g.cols state

/-- `t_xor_l`, short_compress.rs:86-95 -/
def tXorL (g : Cfg) (block : Bytes) : Leak Bytes := do
  let state ← blockToMatrixL g.cols block
  let state ← loop g.rounds state fun state nu => do
    let state ← addConstantXorL g.cols state nu
    let state ← applySBoxL state
    let state ← rotateRowsL g state
    mixColumnsL g.cols state
  matrixToBlockL g.cols state

/-- `xor_bytes`, utils.rs:75-81 -/
def xorBytesL (n : Nat) (a b : Bytes) : Leak Bytes :=
  loop n (List.replicate n (0 : Byte)) fun r i => do upd r i ((← idx a i) ^^^ (← idx b i))

/-- `compress`, short_compress.rs:8-25 -/
def compressL (g : Cfg) (prev : List W64) (block : Bytes) : Leak (List W64) := do
  let p8 ← store (List.replicate (8 * g.cols) (0 : Byte)) prev 8 fun v => beBytes 8 v.toNat
  let m ← xorBytesL (8 * g.cols) block p8
  let t1 ← tXorL g m
  let t2 ← tPlusL g block
  let p8 ← xorBytesL (8 * g.cols) (← xorBytesL (8 * g.cols) t1 t2) p8
  load prev p8 8 (fromBe 64)

/-- The end of `finalize_variable_core`, short.rs:74-94: from the final chaining value to the output. -/
def outputL (g : Cfg) (state : List W64) (out : Bytes) : Leak Bytes := do
  let s8 ← store (List.replicate (8 * g.cols) (0 : Byte)) state 8 fun v => beBytes 8 v.toNat
  let t ← tXorL g s8
  let r8 ← xorBytesL (8 * g.cols) s8 t
  let res ← load (List.replicate g.cols (0 : W64)) r8 8 (fromBe 64)
  store out (← slice res (g.cols / 2) res.length) 8 fun v => beBytes 8 v.toNat

end Hashes.Kupyna
