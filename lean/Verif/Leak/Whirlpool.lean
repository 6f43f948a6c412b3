import Verif.Base.Leak
import Verif.Checked.Whirlpool
/- Whirlpool with what an observer of the memory accesses and branches sees (Base/Leak.lean); written by tools/gen_leak.py from
Verif/Checked/Whirlpool.lean, which says what is modelled. -/
namespace Hashes.Whirlpool
open Leak
/-- `Cj[((k[a] >> 8j) & 0xff) as usize]`, compress.rs:21-28 and :33-40 (`j = 0` has no shift) -/
def lookL (k : List W64) (j a : Nat) : Leak W64 := do
  idx (← idx C j) ((← shr (← idx k a) (8 * j)) &&& 0xff).toNat

/-- The eight table terms, compress.rs:21-28 and :33-40 -/
def lineL (k : List W64) (i : Nat) : Leak W64 := do
  pure ((← lookL k 0 (i % 8)) ^^^ (← lookL k 1 ((7 + i) % 8)) ^^^ (← lookL k 2 ((6 + i) % 8)) ^^^
    (← lookL k 3 ((5 + i) % 8)) ^^^ (← lookL k 4 ((4 + i) % 8)) ^^^ (← lookL k 5 ((3 + i) % 8)) ^^^
    (← lookL k 6 ((2 + i) % 8)) ^^^ (← lookL k 7 ((1 + i) % 8)))

/-- `if i == 0 { RC[r] } else { 0 }`, compress.rs:29 -/
def rcL (i r : Nat) : Leak W64 := branch (i = 0) (idx RC r) (pure 0)

/-- Loop body of compress.rs:19-44 on `(k, s, l)` -/
def roundL (st : List W64 × List W64 × List W64) (r : Nat) : Leak (List W64 × List W64 × List W64) := do
  let l ← loop 8 st.2.2 fun l i => do
    upd l i ((← lineL st.1 i) ^^^ (← rcL i r))
  let k := l
  let l ← loop 8 l fun l i => do upd l i ((← lineL st.2.1 i) ^^^ (← idx k i))
  pure (k, l, l)

/-- `compress_block`, compress.rs:3-49 -/
def compressL (state : List W64) (b : Bytes) : Leak (List W64) := do
  let k := List.replicate 8 (0 : W64)
  let block := List.replicate 8 (0 : W64)
  let s := List.replicate 8 (0 : W64)
  let l := List.replicate 8 (0 : W64)
  let block ← load block b 8 (fromLe 64)
  let k ← copy k 0 8 state
  let s ← loop 8 s fun s i => do upd s i ((← idx block i) ^^^ (← idx k i))
  let st ← loop 10 (k, s, l) roundL
  loop 8 state fun state i => do upd state i ((← idx state i) ^^^ ((← idx st.2.1 i) ^^^ (← idx block i)))

/-- `adc(&mut bit_len[i], b, &mut carry)`, lib.rs:95-99; the sums are `u128`. -/
def adcAtL (l : List W64) (i : Nat) (b carry : W64) : Leak (List W64 × W64) := do
  let a ← idx l i
  let ret ← add (← add (a.setWidth 128) (b.setWidth 128)) (carry.setWidth 128 : W128)
  pure (← upd l i (ret.setWidth 64), (← shr ret 64).setWidth 64)

/-- `update_len`, lib.rs:93-106 -/
def updateLenL (l : List W64) (len : W64) : Leak (List W64) := do
  let (l, c) ← adcAtL l 3 len 0
  let (l, c) ← adcAtL l 2 0 c
  let (l, c) ← adcAtL l 1 0 c
  let (l, _) ← adcAtL l 0 0 c
  pure l

end Hashes.Whirlpool
