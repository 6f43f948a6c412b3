import Verif.Base.Leak
import Verif.Checked.Gost94
/- Gost94 with what an observer of the memory accesses and branches sees (Base/Leak.lean); written by tools/gen_leak.py from
Verif/Checked/Gost94.lean, which says what is modelled. -/
namespace Hashes.Gost94
open Leak
/-- `sbox`, gost94_core.rs:25-36 -/
def sboxL (a : W32) (s : List (List Byte)) : Leak W32 :=
  loop 8 (0 : W32) fun v i => do
    let shft := 4 * i
    let k ← shr (a &&& (← shl (0b1111 : W32) shft)) shft
    add v (← shl (((← idx (← idx s i) k.toNat)).setWidth 32) shft)

/-- `g`, gost94_core.rs:38-40 -/
def gL (a k : W32) (s : List (List Byte)) : Leak W32 := do
  pure ((← sboxL (a + k) s).rotateLeft 11)

/-- Loop body of `encrypt`, gost94_core.rs:53-55 and :59-61 -/
def roundL (k : List W32) (s : List (List Byte)) (ab : W32 × W32) (i : Nat) : Leak (W32 × W32) := do
  let t := ab.2 ^^^ (← gL ab.1 (← idx k i) s)
  pure (t, ab.1)

/-- `encrypt`, gost94_core.rs:43-66: the new contents of the slice `msg`. -/
def encryptL (msg key : Bytes) (s : List (List Byte)) : Leak Bytes := do
  let k := List.replicate 8 (0 : W32)
  let a ← fromLe 32 (← slice msg 0 4)
  let b ← fromLe 32 (← slice msg 4 8)
  let k ← load k key 4 (fromLe 32)
  let ab ← loop 3 (a, b) fun ab _ => loop 8 ab (roundL k s)
  let ab ← loopRev 8 ab (roundL k s)
  let msg ← copy msg 0 4 (leBytes 4 ab.2.toNat)
  copy msg 4 8 (leBytes 4 ab.1.toNat)

/-- `x`, gost94_core.rs:68-74 -/
def xL (a b : Bytes) : Leak Bytes :=
  loop 32 (List.replicate 32 (0 : Byte)) fun out i => do upd out i ((← idx a i) ^^^ (← idx b i))

/-- `x_mut`, gost94_core.rs:76-80 -/
def xMutL (a b : Bytes) : Leak Bytes := loop 32 a fun a i => do upd a i ((← idx a i) ^^^ (← idx b i))

/-- `a`, gost94_core.rs:82-89 -/
def aL (x : Bytes) : Leak Bytes := do
  let out := List.replicate 32 (0 : Byte)
  let out ← copy out 0 24 (← slice x 8 x.length)
  loop 8 out fun out i => do upd out (24 + i) ((← idx x i) ^^^ (← idx x (i + 8)))

/-- `p`, gost94_core.rs:91-100 -/
def pL (y : Bytes) : Leak Bytes :=
  loop 4 (List.replicate 32 (0 : Byte)) fun out i => loop 8 out fun out k => do
    upd out (i + 4 * k) (← idx y (8 * i + k))

/-- `out[i] ^= block[j]` -/
def xorAtL (block out : Bytes) (i j : Nat) : Leak Bytes := do upd out i ((← idx out i) ^^^ (← idx block j))

/-- `psi`, gost94_core.rs:102-123 -/
def psiL (block : Bytes) : Leak Bytes := do
  let out := List.replicate 32 (0 : Byte)
  let out ← copy out 0 30 (← slice block 2 block.length)
  let out ← copy out 30 32 (← slice block 0 2)
  let out ← xorAtL block out 30 2
  let out ← xorAtL block out 31 3
  let out ← xorAtL block out 30 4
  let out ← xorAtL block out 31 5
  let out ← xorAtL block out 30 6
  let out ← xorAtL block out 31 7
  let out ← xorAtL block out 30 24
  let out ← xorAtL block out 31 25
  let out ← xorAtL block out 30 30
  let out ← xorAtL block out 31 31
  copy block 0 32 out

/-- `adc`, gost94_core.rs:126-130; the sums are `u128`. -/
def adcL (a b carry : W64) : Leak (W64 × W64) := do
  let ret ← add (← add (a.setWidth 128) (b.setWidth 128)) (carry.setWidth 128 : W128)
  pure (ret.setWidth 64, (← shr ret 64).setWidth 64)

/-- `shuffle`, gost94_core.rs:142-154: the new `self.h`. -/
def shuffleL (h m s : Bytes) : Leak Bytes := do
  let res ← copy (List.replicate 32 (0 : Byte)) 0 32 s
  let res ← loop 12 res fun b _ => psiL b
  let res ← xMutL res m
  let res ← psiL res
  let h ← xMutL h res
  loop 61 h fun b _ => psiL b

/-- `f`, gost94_core.rs:156-179: the new `self.h`. -/
def fL (sb : List (List Byte)) (h m : Bytes) : Leak Bytes := do
  let s ← copy (List.replicate 32 (0 : Byte)) 0 32 h
  let k ← pL (← xL h m)
  let s ← copy s 0 8 (← encryptL (← slice s 0 8) k sb)
  let u ← aL h
  let v ← aL (← aL m)
  let k ← pL (← xL u v)
  let s ← copy s 8 16 (← encryptL (← slice s 8 16) k sb)
  let u ← aL u
  let u ← xMutL u C
  let v ← aL (← aL v)
  let k ← pL (← xL u v)
  let s ← copy s 16 24 (← encryptL (← slice s 16 24) k sb)
  let u ← aL u
  let v ← aL (← aL v)
  let k ← pL (← xL u v)
  let s ← copy s 24 32 (← encryptL (← slice s 24 32) k sb)
  shuffleL h m s

/-- `update_sigma`, gost94_core.rs:181-187: `sigma` is an array of four words. -/
def updateSigmaL (sigma : List W64) (m : Bytes) : Leak (List W64) := do
  let (sigma, _, _) ← (sigma.zip (chunks 8 m)).foldlM (fun (st : List W64 × Nat × W64) (p : W64 × Bytes) => do
    let b ← fromLe 64 p.2
    let r ← adcL p.1 b st.2.2
    pure (st.1.set st.2.1 r.1, st.2.1 + 1, r.2)) (sigma, 0, 0)
  pure sigma

/-- `adc(&mut n[i], b, &mut carry)` -/
def adcAtL (n : List W64) (i : Nat) (b carry : W64) : Leak (List W64 × W64) := do
  let r ← adcL (← idx n i) b carry
  pure (← upd n i r.1, r.2)

/-- `update_n`, gost94_core.rs:189-195 -/
def updateNL (n : List W64) (len : W64) : Leak (List W64) := do
  let (n, c) ← adcAtL n 0 (← shl len 3) 0
  let (n, c) ← adcAtL n 1 (← shr len 61) c
  let (n, c) ← adcAtL n 2 0 c
  let (n, _) ← adcAtL n 3 0 c
  pure n

/-- `compress`, gost94_core.rs:198-201 -/
def compressL (sb : List (List Byte)) (s : StateC) (block : Bytes) : Leak StateC := do
  pure { s with h := ← fL sb s.h block, sigma := ← updateSigmaL s.sigma block }

/-- gost94_core.rs:230-233 -/
def lastBlockL (sb : List (List Byte)) (s : StateC) (buffer : BlockBuffer) : Leak StateC :=
  branch (buffer.pos ≠ 0) (do
    compressL sb { s with n := ← updateNL s.n (BitVec.ofNat 64 buffer.pos) } (buffer.padWithZeros 32).1) (pure s)

/-- `finalize_fixed_core`, gost94_core.rs:229-247 -/
def finalizeL (sb : List (List Byte)) (s : StateC) (buffer : BlockBuffer) (out : Bytes) : Leak Bytes := do
  let s ← lastBlockL sb s buffer
  let buf ← store (List.replicate 32 (0 : Byte)) s.n 8 fun v => leBytes 8 v.toNat
  let h ← fL sb s.h buf
  let buf ← store buf s.sigma 8 fun v => leBytes 8 v.toNat
  let h ← fL sb h buf
  copy out 0 out.length h

end Hashes.Gost94
