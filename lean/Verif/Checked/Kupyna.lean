import Verif.Base.Rust
import Verif.Model.Kupyna
/- Kupyna statement by statement, with Rust's run-time checks: /repo/kupyna/src/{utils.rs,short_compress.rs,long_compress.rs,
short.rs,long.rs}. -/
namespace Hashes.Kupyna
open Rs

/-- `m[a][b]` -/
def at2 (m : Matrix) (a b : Nat) : Option Byte := do idx (← idx m a) b
/-- `m[a][b] = v` -/
def upd2 (m : Matrix) (a b : Nat) (v : Byte) : Option Matrix := do upd m a (← upd (← idx m a) b v)

/-- `MDS_MATRIX`, consts.rs:1-10 -/
def MDS_MATRIX : List (List Byte) := (List.range 8).map fun r => (List.range 8).map fun b => MDS r b

/-- `multiply_gf`, utils.rs:3-22 -/
def multiplyGfC (x y : Byte) : Option Byte := do
  let s ← loop 8 (x, y, (0 : Byte)) fun s _ => do
    let r := if s.2.1 &&& 1 = 1 then s.2.2 ^^^ s.1 else s.2.2
    let hbit ← shr (s.1 &&& 0x80) 7
    let x ← shl s.1 1
    let x := if hbit = 1 then x ^^^ 0x1d else x
    let y ← shr s.2.1 1
    pure (x, y, r)
  pure s.2.2

/-- `mix_columns`, utils.rs:25-39 -/
def mixColumnsC (n : Nat) (state : Matrix) : Option Matrix :=
  loop n (List.replicate n (List.replicate 8 (0 : Byte))) fun result col => loop 8 result fun result row => do
    let product ← loop 8 (0 : Byte) fun product b => do
      pure (product ^^^ (← multiplyGfC (← at2 state col b) (← at2 MDS_MATRIX row b)))
    upd2 result col row product

/-- `apply_s_box`, utils.rs:41-48 -/
def applySBoxC (state : Matrix) : Option Matrix :=
  loop 8 state fun state i => state.mapM fun row => do
    upd row i (← idx (← idx SBOXES (i % 4)) (← idx row i).toNat)

/-- `add_constant_xor`, utils.rs:50-59 -/
def addConstantXorC (n : Nat) (state : Matrix) (round : Nat) : Option Matrix :=
  loop n state fun state j => do
    let row ← idx state j
    let constant : Byte := BitVec.ofNat 8 ((j * 0x10) ^^^ round)
    upd state j (← upd row 0 ((← idx row 0) ^^^ constant))

/-- `add_constant_plus`, utils.rs:61-72 -/
def addConstantPlusC (n : Nat) (state : Matrix) (round : Nat) : Option Matrix :=
  loop n state fun state j => do
    let row ← idx state j
    let r ← fromLe 64 row
    let k := ((← usub (← usub n j) 1) * 0x10) ^^^ round
    let r := r + ((0x00F0F0F0F0F0F0F3 : W64) ^^^ (← shl (BitVec.ofNat 64 k) 56))
    upd state j (← copy row 0 8 (leBytes 8 r.toNat))

/-- `block_to_matrix`, short_compress.rs:38-49 -/
def blockToMatrixC (n : Nat) (block : Bytes) : Option Matrix :=
  loop n (List.replicate n (List.replicate 8 (0 : Byte))) fun m i => loop 8 m fun m j => do upd2 m i j (← idx block (i * 8 + j))

/-- `matrix_to_block`, short_compress.rs:51-62 -/
def matrixToBlockC (n : Nat) (m : Matrix) : Option Bytes :=
  loop n (List.replicate (n * 8) (0 : Byte)) fun block i => loop 8 block fun block j => do upd block (i * 8 + j) (← at2 m i j)

/-- `shift += 1` on `i32` -/
def incI32 (s : Int) : Option Int := if s + 1 < 2 ^ 31 then some (s + 1) else none
/-- `col + shift as usize`: a negative `i32` becomes a number near 2^64, and the sum overflows. -/
def addShift (col : Nat) (s : Int) : Option Nat :=
  let u := (s % 2 ^ 64).toNat
  if col + u < 2 ^ 64 then some (col + u) else none

/-- `if i == cols - 1 { shift = L } else { shift += 1 }`, short_compress.rs:71-75 (`L = 7`), long_compress.rs:71-75 (`L = 11`) -/
def nextShift (g : Cfg) (i : Nat) (s : Int) : Option Int := do
  if i = (← usub 8 1) then pure (g.lastShift : Int) else incI32 s

/-- Loop body of `rotate_rows`, short_compress.rs:70-82, on `(state, temp, shift)` -/
def rotateC (g : Cfg) (st : Matrix × Bytes × Int) (i : Nat) : Option (Matrix × Bytes × Int) := do
  let shift ← nextShift g i st.2.2
  let temp ← loop g.cols st.2.1 fun temp col => do
    upd temp ((← addShift col shift) % g.cols) (← at2 st.1 col i)
  let state ← loop g.cols st.1 fun state col => do upd2 state col i (← idx temp col)
  pure (state, temp, shift)

/-- `rotate_rows`, short_compress.rs:64-84, long_compress.rs:64-84 -/
def rotateRowsC (g : Cfg) (state : Matrix) : Option Matrix := do
  let st ← loop 8 (state, List.replicate g.cols (0 : Byte), -1) (rotateC g)
  pure st.1

/-- `t_plus_l`, short_compress.rs:27-36 -/
def tPlusC (g : Cfg) (block : Bytes) : Option Bytes := do
  let state ← blockToMatrixC g.cols block
  let state ← loop g.rounds state fun state nu => do
    let state ← addConstantPlusC g.cols state nu
    let state ← applySBoxC state
    let state ← rotateRowsC g state
    mixColumnsC g.cols state
  matrixToBlockC g.cols state

/-- `t_xor_l`, short_compress.rs:86-95 -/
def tXorC (g : Cfg) (block : Bytes) : Option Bytes := do
  let state ← blockToMatrixC g.cols block
  let state ← loop g.rounds state fun state nu => do
    let state ← addConstantXorC g.cols state nu
    let state ← applySBoxC state
    let state ← rotateRowsC g state
    mixColumnsC g.cols state
  matrixToBlockC g.cols state

/-- `xor_bytes`, utils.rs:75-81 -/
def xorBytesC (n : Nat) (a b : Bytes) : Option Bytes :=
  loop n (List.replicate n (0 : Byte)) fun r i => do upd r i ((← idx a i) ^^^ (← idx b i))

/-- `compress`, short_compress.rs:8-25 -/
def compressC (g : Cfg) (prev : List W64) (block : Bytes) : Option (List W64) := do
  let p8 ← store (List.replicate (8 * g.cols) (0 : Byte)) prev 8 fun v => beBytes 8 v.toNat
  let m ← xorBytesC (8 * g.cols) block p8
  let t1 ← tXorC g m
  let t2 ← tPlusC g block
  let p8 ← xorBytesC (8 * g.cols) (← xorBytesC (8 * g.cols) t1 t2) p8
  load prev p8 8 (fromBe 64)

/-- The length field, short.rs:68-72: `u128` products and sums, and the slice `[0..12]` of the sixteen bytes. -/
def lengthC (blocksLen : W64) (bs pos : Nat) : Option Bytes := do
  let n ← add (← mul (BitVec.ofNat 128 blocksLen.toNat) (BitVec.ofNat 128 bs)) (BitVec.ofNat 128 pos)
  let bits ← mul (8 : W128) n
  slice (leBytes 16 bits.toNat) 0 12

/-- The end of `finalize_variable_core`, short.rs:74-94: from the final chaining value to the output. -/
def outputC (g : Cfg) (state : List W64) (out : Bytes) : Option Bytes := do
  let s8 ← store (List.replicate (8 * g.cols) (0 : Byte)) state 8 fun v => beBytes 8 v.toNat
  let t ← tXorC g s8
  let r8 ← xorBytesC (8 * g.cols) s8 t
  let res ← load (List.replicate g.cols (0 : W64)) r8 8 (fromBe 64)
  store out (← slice res (g.cols / 2) res.length) 8 fun v => beBytes 8 v.toNat

end Hashes.Kupyna
