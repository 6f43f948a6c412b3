import Verif.Base.Leak
import Verif.Checked.Tiger
/- Tiger with what an observer of the memory accesses and branches sees (Base/Leak.lean); written by tools/gen_leak.py from
Verif/Checked/Tiger.lean, which says what is modelled. -/
namespace Hashes.Tiger
open Leak
/-- `TABLES[i][usize::from(c2[j])]`, compress.rs:8-15 -/
def lookL (T : List (List W64)) (i : Nat) (c2 : Bytes) (j : Nat) : Leak W64 := do
  idx (← idx T i) (← idx c2 j).toNat

/-- `round`, compress.rs:5-18 -/
def roundL (T : List (List W64)) (a b c x mul : W64) : Leak V3 := do
  let c := c ^^^ x
  let c2 := leBytes 8 c.toNat
  let a2 := (← lookL T 0 c2 0) ^^^ (← lookL T 1 c2 2) ^^^ (← lookL T 2 c2 4) ^^^ (← lookL T 3 c2 6)
  let b2 := (← lookL T 3 c2 1) ^^^ (← lookL T 2 c2 3) ^^^ (← lookL T 1 c2 5) ^^^ (← lookL T 0 c2 7)
  pure ⟨a - a2, (b + b2) * mul, c⟩

/-- `pass`, compress.rs:20-30 -/
def passL (T : List (List W64)) (a b c : W64) (x : List W64) (mul : W64) : Leak V3 := do
  let ⟨a, b, c⟩ ← roundL T a b c (← idx x 0) mul
  let ⟨b, c, a⟩ ← roundL T b c a (← idx x 1) mul
  let ⟨c, a, b⟩ ← roundL T c a b (← idx x 2) mul
  let ⟨a, b, c⟩ ← roundL T a b c (← idx x 3) mul
  let ⟨b, c, a⟩ ← roundL T b c a (← idx x 4) mul
  let ⟨c, a, b⟩ ← roundL T c a b (← idx x 5) mul
  let ⟨a, b, c⟩ ← roundL T a b c (← idx x 6) mul
  let ⟨b, c, a⟩ ← roundL T b c a (← idx x 7) mul
  pure ⟨a, b, c⟩

/-- `key_schedule`, compress.rs:32-50; `wrapping_add` and `wrapping_sub` do not panic. -/
def keyScheduleL (x : List W64) : Leak (List W64) := do
  let x ← upd x 0 ((← idx x 0) - ((← idx x 7) ^^^ 0xA5A5A5A5A5A5A5A5))
  let x ← upd x 1 ((← idx x 1) ^^^ (← idx x 0))
  let x ← upd x 2 ((← idx x 2) + (← idx x 1))
  let x ← upd x 3 ((← idx x 3) - ((← idx x 2) ^^^ (← shl (~~~(← idx x 1)) 19)))
  let x ← upd x 4 ((← idx x 4) ^^^ (← idx x 3))
  let x ← upd x 5 ((← idx x 5) + (← idx x 4))
  let x ← upd x 6 ((← idx x 6) - ((← idx x 5) ^^^ (← shr (~~~(← idx x 4)) 23)))
  let x ← upd x 7 ((← idx x 7) ^^^ (← idx x 6))
  let x ← upd x 0 ((← idx x 0) + (← idx x 7))
  let x ← upd x 1 ((← idx x 1) - ((← idx x 0) ^^^ (← shl (~~~(← idx x 7)) 19)))
  let x ← upd x 2 ((← idx x 2) ^^^ (← idx x 1))
  let x ← upd x 3 ((← idx x 3) + (← idx x 2))
  let x ← upd x 4 ((← idx x 4) - ((← idx x 3) ^^^ (← shr (~~~(← idx x 2)) 23)))
  let x ← upd x 5 ((← idx x 5) ^^^ (← idx x 4))
  let x ← upd x 6 ((← idx x 6) + (← idx x 5))
  upd x 7 ((← idx x 7) - ((← idx x 6) ^^^ 0x0123456789ABCDEF))

/-- `compress`, compress.rs:52-68; the destructuring `let [a, b, c] = *state` does not panic. -/
def compressL (T : List (List W64)) (state : List W64) (rawBlock : Bytes) : Leak (List W64) := do
  let block ← load (List.replicate 8 (0 : W64)) rawBlock 8 (fromLe 64)
  let a ← idx state 0
  let b ← idx state 1
  let c ← idx state 2
  let ⟨a, b, c⟩ ← passL T a b c block 5
  let block ← keyScheduleL block
  let ⟨c, a, b⟩ ← passL T c a b block 7
  let block ← keyScheduleL block
  let ⟨b, c, a⟩ ← passL T b c a block 9
  let state ← upd state 0 ((← idx state 0) ^^^ a)
  let state ← upd state 1 (b - (← idx state 1))
  upd state 2 (c + (← idx state 2))

end Hashes.Tiger
