import Verif.Base.Leak
import Verif.Checked.Sm3
/- Sm3 with what an observer of the memory accesses and branches sees (Base/Leak.lean); written by tools/gen_leak.py from
Verif/Checked/Sm3.lean, which says what is modelled. -/
namespace Hashes.Sm3
open Leak
/-- `w1`, compress.rs:36-38 -/
def w1L (x : List W32) (i : Nat) : Leak W32 := idx x (i &&& 0x0f)

/-- `w2`, compress.rs:41-46; `i - 9`, `i - 3`, `i - 13`, `i - 6` are checked. -/
def w2L (x : List W32) (i : Nat) : Leak (W32 × List W32) := do
  let tw := (← w1L x i) ^^^ (← w1L x (← usub i 9)) ^^^ (← w1L x (← usub i 3)).rotateLeft 15
  let tw := p1 tw ^^^ (← w1L x (← usub i 13)).rotateLeft 7 ^^^ (← w1L x (← usub i 6))
  let x ← upd x (i &&& 0x0f) tw
  pure (tw, x)

/-- `t`, compress.rs:49-51 -/
def tL (i : Nat) : Leak W32 := idx T32 i

/-- The last macro argument, `w1(&x, i)` or `w2(&mut x, i)`. -/
def fetchL (a : Acc) (x : List W32) (i : Nat) : Leak (W32 × List W32) :=
  match a with
  | .w1 => do pure (← w1L x i, x)
  | .w2 => w2L x i

/-- One macro line, compress.rs:115-149 and :163-226: the arguments `t(i)`, `w1(&x, i)` and the last one are evaluated in this
order; registers are local variables. -/
def stepL (s : V8 W32 × List W32) (l : Line) : Leak (V8 W32 × List W32) := do
  let tv ← tL l.t
  let w ← w1L s.2 l.w
  let r ← fetchL l.acc s.2 l.w'
  pure (call (fun a b c d e f g h => roundFn l.mac a b c d e f g h tv w r.1) s.1 l, r.2)

/-- `compress_u32`, compress.rs:151-236 -/
def compressU32L (state block : List W32) : Leak (List W32) := do
  let a ← idx state 0
  let b ← idx state 1
  let c ← idx state 2
  let d ← idx state 3
  let e ← idx state 4
  let f ← idx state 5
  let g ← idx state 6
  let h ← idx state 7
  let r ← lines.foldlM stepL (⟨a, b, c, d, e, f, g, h⟩, block)
  let state ← upd state 0 ((← idx state 0) ^^^ r.1.x0)
  let state ← upd state 1 ((← idx state 1) ^^^ r.1.x1)
  let state ← upd state 2 ((← idx state 2) ^^^ r.1.x2)
  let state ← upd state 3 ((← idx state 3) ^^^ r.1.x3)
  let state ← upd state 4 ((← idx state 4) ^^^ r.1.x4)
  let state ← upd state 5 ((← idx state 5) ^^^ r.1.x5)
  let state ← upd state 6 ((← idx state 6) ^^^ r.1.x6)
  upd state 7 ((← idx state 7) ^^^ r.1.x7)

/-- Loop body of `compress`, compress.rs:239-245 -/
def compressL (state : List W32) (block : Bytes) : Leak (List W32) := do
  compressU32L state (← load (List.replicate 16 (0 : W32)) block 4 (fromBe 32))

end Hashes.Sm3
