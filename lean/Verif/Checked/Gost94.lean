import Verif.Base.Rust
import Verif.Model.Gost94
/- GOST R 34.11-94 statement by statement, with Rust's run-time checks: /repo/gost94/src/gost94_core.rs. -/
namespace Hashes.Gost94
open Rs

/-- `sbox`, gost94_core.rs:25-36 -/
def sboxC (a : W32) (s : List (List Byte)) : Option W32 :=
  loop 8 (0 : W32) fun v i => do
    let shft := 4 * i
    let k ← shr (a &&& (← shl (0b1111 : W32) shft)) shft
    add v (← shl (((← idx (← idx s i) k.toNat)).setWidth 32) shft)

/-- `g`, gost94_core.rs:38-40 -/
def gC (a k : W32) (s : List (List Byte)) : Option W32 := do
  pure ((← sboxC (a + k) s).rotateLeft 11)

/-- Loop body of `encrypt`, gost94_core.rs:53-55 and :59-61 -/
def roundC (k : List W32) (s : List (List Byte)) (ab : W32 × W32) (i : Nat) : Option (W32 × W32) := do
  let t := ab.2 ^^^ (← gC ab.1 (← idx k i) s)
  pure (t, ab.1)

/-- `encrypt`, gost94_core.rs:43-66: the new contents of the slice `msg`. -/
def encryptC (msg key : Bytes) (s : List (List Byte)) : Option Bytes := do
  let k := List.replicate 8 (0 : W32)
  let a ← fromLe 32 (← slice msg 0 4)
  let b ← fromLe 32 (← slice msg 4 8)
  let k ← load k key 4 (fromLe 32)
  let ab ← loop 3 (a, b) fun ab _ => loop 8 ab (roundC k s)
  let ab ← loopRev 8 ab (roundC k s)
  let msg ← copy msg 0 4 (leBytes 4 ab.2.toNat)
  copy msg 4 8 (leBytes 4 ab.1.toNat)

/-- `x`, gost94_core.rs:68-74 -/
def xC (a b : Bytes) : Option Bytes :=
  loop 32 (List.replicate 32 (0 : Byte)) fun out i => do upd out i ((← idx a i) ^^^ (← idx b i))

/-- `x_mut`, gost94_core.rs:76-80 -/
def xMutC (a b : Bytes) : Option Bytes := loop 32 a fun a i => do upd a i ((← idx a i) ^^^ (← idx b i))

/-- `a`, gost94_core.rs:82-89 -/
def aC (x : Bytes) : Option Bytes := do
  let out := List.replicate 32 (0 : Byte)
  let out ← copy out 0 24 (← slice x 8 x.length)
  loop 8 out fun out i => do upd out (24 + i) ((← idx x i) ^^^ (← idx x (i + 8)))

/-- `p`, gost94_core.rs:91-100 -/
def pC (y : Bytes) : Option Bytes :=
  loop 4 (List.replicate 32 (0 : Byte)) fun out i => loop 8 out fun out k => do
    upd out (i + 4 * k) (← idx y (8 * i + k))

/-- `out[i] ^= block[j]` -/
def xorAt (block out : Bytes) (i j : Nat) : Option Bytes := do upd out i ((← idx out i) ^^^ (← idx block j))

/-- `psi`, gost94_core.rs:102-123 -/
def psiC (block : Bytes) : Option Bytes := do
  let out := List.replicate 32 (0 : Byte)
  let out ← copy out 0 30 (← slice block 2 block.length)
  let out ← copy out 30 32 (← slice block 0 2)
  let out ← xorAt block out 30 2
  let out ← xorAt block out 31 3
  let out ← xorAt block out 30 4
  let out ← xorAt block out 31 5
  let out ← xorAt block out 30 6
  let out ← xorAt block out 31 7
  let out ← xorAt block out 30 24
  let out ← xorAt block out 31 25
  let out ← xorAt block out 30 30
  let out ← xorAt block out 31 31
  copy block 0 32 out

/-- `adc`, gost94_core.rs:126-130; the sums are `u128`. -/
def adcC (a b carry : W64) : Option (W64 × W64) := do
  let ret ← add (← add (a.setWidth 128) (b.setWidth 128)) (carry.setWidth 128 : W128)
  pure (ret.setWidth 64, (← shr ret 64).setWidth 64)

/-- `shuffle`, gost94_core.rs:142-154: the new `self.h`. -/
def shuffleC (h m s : Bytes) : Option Bytes := do
  let res ← copy (List.replicate 32 (0 : Byte)) 0 32 s
  let res ← loop 12 res fun b _ => psiC b
  let res ← xMutC res m
  let res ← psiC res
  let h ← xMutC h res
  loop 61 h fun b _ => psiC b

/-- `f`, gost94_core.rs:156-179: the new `self.h`. -/
def fC (sb : List (List Byte)) (h m : Bytes) : Option Bytes := do
  let s ← copy (List.replicate 32 (0 : Byte)) 0 32 h
  let k ← pC (← xC h m)
  let s ← copy s 0 8 (← encryptC (← slice s 0 8) k sb)
  let u ← aC h
  let v ← aC (← aC m)
  let k ← pC (← xC u v)
  let s ← copy s 8 16 (← encryptC (← slice s 8 16) k sb)
  let u ← aC u
  let u ← xMutC u C
  let v ← aC (← aC v)
  let k ← pC (← xC u v)
  let s ← copy s 16 24 (← encryptC (← slice s 16 24) k sb)
  let u ← aC u
  let v ← aC (← aC v)
  let k ← pC (← xC u v)
  let s ← copy s 24 32 (← encryptC (← slice s 24 32) k sb)
  shuffleC h m s

/-- `update_sigma`, gost94_core.rs:181-187: `sigma` is an array of four words. -/
def updateSigmaC (sigma : List W64) (m : Bytes) : Option (List W64) := do
  let (sigma, _, _) ← (sigma.zip (chunks 8 m)).foldlM (fun (st : List W64 × Nat × W64) (p : W64 × Bytes) => do
    let b ← fromLe 64 p.2
    let r ← adcC p.1 b st.2.2
    pure (st.1.set st.2.1 r.1, st.2.1 + 1, r.2)) (sigma, 0, 0)
  pure sigma

/-- `adc(&mut n[i], b, &mut carry)` -/
def adcAt (n : List W64) (i : Nat) (b carry : W64) : Option (List W64 × W64) := do
  let r ← adcC (← idx n i) b carry
  pure (← upd n i r.1, r.2)

/-- `update_n`, gost94_core.rs:189-195 -/
def updateNC (n : List W64) (len : W64) : Option (List W64) := do
  let (n, c) ← adcAt n 0 (← shl len 3) 0
  let (n, c) ← adcAt n 1 (← shr len 61) c
  let (n, c) ← adcAt n 2 0 c
  let (n, _) ← adcAt n 3 0 c
  pure n

/-- `Gost94Core`, gost94_core.rs:134-139 -/
structure StateC where
  h : Bytes
  n : List W64
  sigma : List W64

/-- `compress`, gost94_core.rs:198-201 -/
def compressC (sb : List (List Byte)) (s : StateC) (block : Bytes) : Option StateC := do
  pure { s with h := ← fC sb s.h block, sigma := ← updateSigmaC s.sigma block }

/-- gost94_core.rs:230-233 -/
def lastBlockC (sb : List (List Byte)) (s : StateC) (buffer : BlockBuffer) : Option StateC :=
  if buffer.pos ≠ 0 then do
    compressC sb { s with n := ← updateNC s.n (BitVec.ofNat 64 buffer.pos) } (buffer.padWithZeros 32).1
  else pure s

/-- `finalize_fixed_core`, gost94_core.rs:229-247 -/
def finalizeC (sb : List (List Byte)) (s : StateC) (buffer : BlockBuffer) (out : Bytes) : Option Bytes := do
  let s ← lastBlockC sb s buffer
  let buf ← store (List.replicate 32 (0 : Byte)) s.n 8 fun v => leBytes 8 v.toNat
  let h ← fC sb s.h buf
  let buf ← store buf s.sigma 8 fun v => leBytes 8 v.toNat
  let h ← fC sb h buf
  copy out 0 out.length h

end Hashes.Gost94
