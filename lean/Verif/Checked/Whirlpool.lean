import Verif.Base.Rust
import Verif.Model.Whirlpool
/- Whirlpool statement by statement, with Rust's run-time checks: /repo/whirlpool/src/{compress.rs,lib.rs}. -/
namespace Hashes.Whirlpool
open Rs

/-- `Cj[((k[a] >> 8j) & 0xff) as usize]`, compress.rs:21-28 and :33-40 (`j = 0` has no shift) -/
def lookC (k : List W64) (j a : Nat) : Option W64 := do
  idx (← idx C j) ((← shr (← idx k a) (8 * j)) &&& 0xff).toNat

/-- The eight table terms, compress.rs:21-28 and :33-40 -/
def lineC (k : List W64) (i : Nat) : Option W64 := do
  pure ((← lookC k 0 (i % 8)) ^^^ (← lookC k 1 ((7 + i) % 8)) ^^^ (← lookC k 2 ((6 + i) % 8)) ^^^
    (← lookC k 3 ((5 + i) % 8)) ^^^ (← lookC k 4 ((4 + i) % 8)) ^^^ (← lookC k 5 ((3 + i) % 8)) ^^^
    (← lookC k 6 ((2 + i) % 8)) ^^^ (← lookC k 7 ((1 + i) % 8)))

/-- `if i == 0 { RC[r] } else { 0 }`, compress.rs:29 -/
def rcC (i r : Nat) : Option W64 := if i = 0 then idx RC r else some 0

/-- Loop body of compress.rs:19-44 on `(k, s, l)` -/
def roundC (st : List W64 × List W64 × List W64) (r : Nat) : Option (List W64 × List W64 × List W64) := do
  let l ← loop 8 st.2.2 fun l i => do
    upd l i ((← lineC st.1 i) ^^^ (← rcC i r))
  let k := l
  let l ← loop 8 l fun l i => do upd l i ((← lineC st.2.1 i) ^^^ (← idx k i))
  pure (k, l, l)

/-- `compress_block`, compress.rs:3-49 -/
def compressC (state : List W64) (b : Bytes) : Option (List W64) := do
  let k := List.replicate 8 (0 : W64)
  let block := List.replicate 8 (0 : W64)
  let s := List.replicate 8 (0 : W64)
  let l := List.replicate 8 (0 : W64)
  let block ← load block b 8 (fromLe 64)
  let k ← copy k 0 8 state
  let s ← loop 8 s fun s i => do upd s i ((← idx block i) ^^^ (← idx k i))
  let st ← loop 10 (k, s, l) roundC
  loop 8 state fun state i => do upd state i ((← idx state i) ^^^ ((← idx st.2.1 i) ^^^ (← idx block i)))

/-- `adc(&mut bit_len[i], b, &mut carry)`, lib.rs:95-99; the sums are `u128`. -/
def adcAt (l : List W64) (i : Nat) (b carry : W64) : Option (List W64 × W64) := do
  let a ← idx l i
  let ret ← add (← add (a.setWidth 128) (b.setWidth 128)) (carry.setWidth 128 : W128)
  pure (← upd l i (ret.setWidth 64), (← shr ret 64).setWidth 64)

/-- `update_len`, lib.rs:93-106 -/
def updateLenC (l : List W64) (len : W64) : Option (List W64) := do
  let (l, c) ← adcAt l 3 len 0
  let (l, c) ← adcAt l 2 0 c
  let (l, c) ← adcAt l 1 0 c
  let (l, _) ← adcAt l 0 0 c
  pure l

end Hashes.Whirlpool
