import Verif.Base.Rust
import Verif.Model.Sha1Checked
/-
The collision-detecting compression once more, statement by statement, with Rust's run-time checks: /repo/sha1-checked/src/compress.rs
and ubc_check.rs.  The registers stay a `V5` (they are five variables); arrays of 16 and 80 words and byte buffers are lists.
-/
namespace Hashes.Sha1Checked
open Rs

/-! ### ubc_check.rs -/

/-- `x`, `x >> k`, `x << k`. -/
def Sh.appC (x : W32) : Sh → Option W32
  | .n => some x
  | .r k => shr x k
  | .l k => shl x k

/-- `(w[i] …) ^ (w[j] …)`. -/
def Pair.evalC (w : List W32) (p : Pair) : Option W32 := do
  let x ← idx w p.i
  let x ← p.si.appC x
  let y ← idx w p.j
  let y ← p.sj.appC y
  pure (x ^^^ y)

/-- The `const DV_…_BIT: u32 = 1 << d`, ubc_check.rs:9-40, or-ed together. -/
def bitsOfC (dvs : List Nat) : Option W32 := dvs.foldlM (fun m d => do
  let b ← shl 1#32 d
  pure (m ||| b)) 0

/-- The conditions of the last part, joined by `||`, which stops at the first that is true. -/
def anyC (w : List W32) : List (Pair × Nat × Bool) → Option Bool
  | [] => some false
  | c :: cs => do
    let x ← c.1.evalC w
    let b ← shl 1#32 c.2.1
    let y := x &&& b
    if (if c.2.2 then y != 0 else y == 0) then pure true else anyC w cs

/-- `((x >> o) & (1 << s)).wrapping_sub(1 << s)` -/
def subTermC (w : List W32) (x : Pair) (o s : Nat) : Option W32 := do
  let x ← x.evalC w
  let x ← shr x o
  let b ← shl 1#32 s
  pure ((x &&& b) - b)

/-- `0u32.wrapping_sub((x >> o) & (1 << s))` -/
def negTermC (w : List W32) (x : Pair) (o s : Nat) : Option W32 := do
  let x ← x.evalC w
  let x ← shr x o
  let b ← shl 1#32 s
  pure (0#32 - (x &&& b))

/-- `mask &= term | !bits` unless it is guarded by `if mask & bits != 0` and the guard is false. -/
def guarded (guard : Bool) (mask bits : W32) (term : Option W32) : Option W32 :=
  if guard = true ∧ mask &&& bits = 0 then some mask else do
    let t ← term
    pure (mask &&& (t ||| ~~~ bits))

/-- `if mask & bit != 0 && cond { mask &= !bit }` -/
def tested (mask bit : W32) (cond : Option Bool) : Option W32 :=
  if mask &&& bit = 0 then some mask else do
    let c ← cond
    pure (if c then mask &&& ~~~ bit else mask)

/-- `x << k` in `mask &= …` -/
def shlTermC (w : List W32) (x : Pair) (k : Nat) : Option W32 := do
  let x ← x.evalC w
  shl x k

/-- `!(x >> k)` -/
def notShrTermC (w : List W32) (x : Pair) (k : Nat) : Option W32 := do
  let x ← x.evalC w
  let x ← shr x k
  pure (~~~ x)

/-- One statement of `ubc_check`. -/
def Stmt.runC (w : List W32) (mask : W32) : Stmt → Option W32
  | .sub guard x o s dvs => do
    let bits ← bitsOfC dvs
    guarded guard mask bits (subTermC w x o s)
  | .neg guard x o s dvs => do
    let bits ← bitsOfC dvs
    guarded guard mask bits (negTermC w x o s)
  | .shl dv x k => do
    let bits ← bitsOfC [dv]
    guarded true mask bits (shlTermC w x k)
  | .notShr dv x k => do
    let bits ← bitsOfC [dv]
    guarded true mask bits (notShrTermC w x k)
  | .test dv cs => do
    let bits ← bitsOfC [dv]
    tested mask bits (anyC w cs)

/-- `ubc_check`, ubc_check.rs:602-1077. -/
def ubcCheckC (w : List W32) : Option W32 := do
  let mask ← ubcStmts.foldlM (Stmt.runC w) (~~~ 0)
  if mask ≠ 0 then ubcFinal.foldlM (Stmt.runC w) mask else some mask

/-! ### compress.rs -/

/-- `mix`, compress.rs:16-18. -/
def mixC (w : List W32) (t : Nat) : Option W32 := do
  let i ← usub t 3
  let x3 ← idx w i
  let i ← usub t 8
  let x8 ← idx w i
  let i ← usub t 14
  let x14 ← idx w i
  let i ← usub t 16
  let x16 ← idx w i
  pure ((x3 ^^^ x8 ^^^ x14 ^^^ x16).rotateLeft 1)

/-- `roundN_step4`, compress.rs:129-264, :283-326. -/
def roundStep4C (r : Rnd) (ra rb rc rd re : Nat) (w : List W32) (t : Nat) (v : V5 W32) : Option (V5 W32) := do
  let wt ← idx w t
  let v := subStep r ra rb rc rd re wt v
  let wt ← idx w (t + 1)
  let v := subStep r re ra rb rc rd wt v
  let wt ← idx w (t + 2)
  let v := subStep r rd re ra rb rc wt v
  let wt ← idx w (t + 3)
  pure (subStep r rc rd re ra rb wt v)

/-- `roundN_step_bw4`, compress.rs:397-458. -/
def roundStepBw4C (r : Rnd) (ra rb rc rd re : Nat) (m : List W32) (t : Nat) (v : V5 W32) : Option (V5 W32) := do
  let mt ← idx m t
  let v := roundStepBw r ra rb rc rd re mt v
  let i ← usub t 1
  let mt ← idx m i
  let v := roundStepBw r rb rc rd re ra mt v
  let i ← usub t 2
  let mt ← idx m i
  let v := roundStepBw r rc rd re ra rb mt v
  let i ← usub t 3
  let mt ← idx m i
  pure (roundStepBw r rd re ra rb rc mt v)

/-- Registers and expanded message. -/
abbrev WorkC := V5 W32 × List W32

/-- `full_round3_step` / `full_round4_step`, compress.rs:107-126. -/
def fullStepC (r : Rnd) (ra rb rc rd re : Nat) (t : Nat) (x : WorkC) : Option WorkC := do
  let y ← mixC x.2 t
  let w ← upd x.2 t y
  let wt ← idx w t
  pure (subStep r ra rb rc rd re wt x.1, w)

/-- `full_round1_step_load4`, compress.rs:267-280. -/
def load4C (ra rb rc rd re : Nat) (m : List W32) (t : Nat) (x : WorkC) : Option WorkC := do
  let s ← slice m t (t + 4)
  let w ← copy x.2 t (t + 4) s
  let v ← roundStep4C rnd1 ra rb rc rd re w t x.1
  pure (v, w)

/-- `full_round1_step_expand4`, `full_round2_step4`, `full_round3_step4`, `full_round4_step4`, compress.rs:329-394. -/
def expand4C (r : Rnd) (ra rb rc rd re : Nat) (t : Nat) (x : WorkC) : Option WorkC := do
  let y ← mixC x.2 t
  let w ← upd x.2 t y
  let y ← mixC w (t + 1)
  let w ← upd w (t + 1) y
  let y ← mixC w (t + 2)
  let w ← upd w (t + 2) y
  let y ← mixC w (t + 3)
  let w ← upd w (t + 3) y
  let v ← roundStep4C r ra rb rc rd re w t x.1
  pure (v, w)

/-- `compression_w`, compress.rs:468-496. -/
def compressionWC (ihv : V5 W32) (w : List W32) : Option (V5 W32) := do
  let v := ihv
  let v ← roundStep4C rnd1 a b c d e w 0 v
  let v ← roundStep4C rnd1 b c d e a w 4 v
  let v ← roundStep4C rnd1 c d e a b w 8 v
  let v ← roundStep4C rnd1 d e a b c w 12 v
  let v ← roundStep4C rnd1 e a b c d w 16 v
  let v ← roundStep4C rnd2 a b c d e w 20 v
  let v ← roundStep4C rnd2 b c d e a w 24 v
  let v ← roundStep4C rnd2 c d e a b w 28 v
  let v ← roundStep4C rnd2 d e a b c w 32 v
  let v ← roundStep4C rnd2 e a b c d w 36 v
  let v ← roundStep4C rnd3 a b c d e w 40 v
  let v ← roundStep4C rnd3 b c d e a w 44 v
  let v ← roundStep4C rnd3 c d e a b w 48 v
  let v ← roundStep4C rnd3 d e a b c w 52 v
  let v ← roundStep4C rnd3 e a b c d w 56 v
  let v ← roundStep4C rnd4 a b c d e w 60 v
  let v ← roundStep4C rnd4 b c d e a w 64 v
  let v ← roundStep4C rnd4 c d e a b w 68 v
  let v ← roundStep4C rnd4 d e a b c w 72 v
  let v ← roundStep4C rnd4 e a b c d w 76 v
  pure (addAssign ihv v)

/-- What `compression_states` leaves in its output arguments. -/
structure StatesC where
  ihv : V5 W32
  w : List W32
  state58 : V5 W32
  state65 : V5 W32

/-- `compression_states`, compress.rs:498-549. -/
def compressionStatesC (ihv : V5 W32) (m w : List W32) : Option StatesC := do
  let x : WorkC := (ihv, w)
  let x ← load4C a b c d e m 0 x
  let x ← load4C b c d e a m 4 x
  let x ← load4C c d e a b m 8 x
  let x ← load4C d e a b c m 12 x
  let x ← expand4C rnd1 e a b c d 16 x
  let x ← expand4C rnd2 a b c d e 20 x
  let x ← expand4C rnd2 b c d e a 24 x
  let x ← expand4C rnd2 c d e a b 28 x
  let x ← expand4C rnd2 d e a b c 32 x
  let x ← expand4C rnd2 e a b c d 36 x
  let x ← expand4C rnd3 a b c d e 40 x
  let x ← expand4C rnd3 b c d e a 44 x
  let x ← expand4C rnd3 c d e a b 48 x
  let x ← expand4C rnd3 d e a b c 52 x
  let x ← fullStepC rnd3 e a b c d 56 x
  let x ← fullStepC rnd3 d e a b c 57 x
  let state58 := x.1
  let x ← fullStepC rnd3 c d e a b 58 x
  let x ← fullStepC rnd3 b c d e a 59 x
  let x ← expand4C rnd4 a b c d e 60 x
  let x ← fullStepC rnd4 b c d e a 64 x
  let state65 := x.1
  let x ← fullStepC rnd4 a b c d e 65 x
  let x ← fullStepC rnd4 e a b c d 66 x
  let x ← fullStepC rnd4 d e a b c 67 x
  let x ← expand4C rnd4 c d e a b 68 x
  let x ← expand4C rnd4 d e a b c 72 x
  let x ← expand4C rnd4 e a b c d 76 x
  pure ⟨addAssign ihv x.1, x.2, state58, state65⟩

/-- `recompress_fast_58`, compress.rs:551-596. -/
def recompressFast58C (me2 : List W32) (state : V5 W32) : Option (V5 W32 × V5 W32) := do
  let v := state
  let mt ← idx me2 57
  let v := roundStepBw rnd3 d e a b c mt v
  let mt ← idx me2 56
  let v := roundStepBw rnd3 e a b c d mt v
  let v ← roundStepBw4C rnd3 a b c d e me2 55 v
  let v ← roundStepBw4C rnd3 e a b c d me2 51 v
  let v ← roundStepBw4C rnd3 d e a b c me2 47 v
  let v ← roundStepBw4C rnd3 c d e a b me2 43 v
  let v ← roundStepBw4C rnd2 b c d e a me2 39 v
  let v ← roundStepBw4C rnd2 a b c d e me2 35 v
  let v ← roundStepBw4C rnd2 e a b c d me2 31 v
  let v ← roundStepBw4C rnd2 d e a b c me2 27 v
  let v ← roundStepBw4C rnd2 c d e a b me2 23 v
  let v ← roundStepBw4C rnd1 b c d e a me2 19 v
  let v ← roundStepBw4C rnd1 a b c d e me2 15 v
  let v ← roundStepBw4C rnd1 e a b c d me2 11 v
  let v ← roundStepBw4C rnd1 d e a b c me2 7 v
  let v ← roundStepBw4C rnd1 c d e a b me2 3 v
  let ihvin := v
  let v := state
  let mt ← idx me2 58
  let v := roundStep rnd3 c d e a b mt v
  let mt ← idx me2 59
  let v := roundStep rnd3 b c d e a mt v
  let v ← roundStep4C rnd4 a b c d e me2 60 v
  let v ← roundStep4C rnd4 b c d e a me2 64 v
  let v ← roundStep4C rnd4 c d e a b me2 68 v
  let v ← roundStep4C rnd4 d e a b c me2 72 v
  let v ← roundStep4C rnd4 e a b c d me2 76 v
  pure (ihvin, addAssign ihvin v)

/-- `recompress_fast_65`, compress.rs:598-643. -/
def recompressFast65C (me2 : List W32) (state : V5 W32) : Option (V5 W32 × V5 W32) := do
  let v := state
  let mt ← idx me2 64
  let v := roundStepBw rnd4 b c d e a mt v
  let v ← roundStepBw4C rnd4 c d e a b me2 63 v
  let v ← roundStepBw4C rnd3 b c d e a me2 59 v
  let v ← roundStepBw4C rnd3 a b c d e me2 55 v
  let v ← roundStepBw4C rnd3 e a b c d me2 51 v
  let v ← roundStepBw4C rnd3 d e a b c me2 47 v
  let v ← roundStepBw4C rnd3 c d e a b me2 43 v
  let v ← roundStepBw4C rnd2 b c d e a me2 39 v
  let v ← roundStepBw4C rnd2 a b c d e me2 35 v
  let v ← roundStepBw4C rnd2 e a b c d me2 31 v
  let v ← roundStepBw4C rnd2 d e a b c me2 27 v
  let v ← roundStepBw4C rnd2 c d e a b me2 23 v
  let v ← roundStepBw4C rnd1 b c d e a me2 19 v
  let v ← roundStepBw4C rnd1 a b c d e me2 15 v
  let v ← roundStepBw4C rnd1 e a b c d me2 11 v
  let v ← roundStepBw4C rnd1 d e a b c me2 7 v
  let v ← roundStepBw4C rnd1 c d e a b me2 3 v
  let ihvin := v
  let v := state
  let mt ← idx me2 65
  let v := roundStep rnd4 a b c d e mt v
  let mt ← idx me2 66
  let v := roundStep rnd4 e a b c d mt v
  let mt ← idx me2 67
  let v := roundStep rnd4 d e a b c mt v
  let v ← roundStep4C rnd4 c d e a b me2 68 v
  let v ← roundStep4C rnd4 d e a b c me2 72 v
  let v ← roundStep4C rnd4 e a b c d me2 76 v
  pure (ihvin, addAssign ihvin v)

/-- `recompression_step`, compress.rs:645-660. -/
def recompressionStepC (step : Testt) (me2 : List W32) (state : V5 W32) : Option (V5 W32 × V5 W32) :=
  match step with
  | .T58 => recompressFast58C me2 state
  | .T65 => recompressFast65C me2 state

/-- `for ((m2, m1), dm) in m2.iter_mut().zip(m1).zip(dm) { *m2 = m1 ^ dm; }`, compress.rs:701-705: entries beyond the shortest of the
three keep their value. -/
def xorInto : List W32 → List W32 → List W32 → List W32
  | _ :: m2, x :: m1, y :: dm => (x ^^^ y) :: xorInto m2 m1 dm
  | m2, _, _ => m2

/-- `if ctx.safe_hash { compression_w(state, &ctx.m1); compression_w(state, &ctx.m1); }`, compress.rs:730-733. -/
def safeC (state : V5 W32) (ctx : Detection) : Option (V5 W32) :=
  if ctx.safeHash then do
    let state ← compressionWC state ctx.m1.toList
    compressionWC state ctx.m1.toList
  else some state

/-- `[u32; 80]` from a list of 80 words (arrays of the struct keep their type). -/
def arr80 (l : List W32) : Option (Arr 32 80) := if h : l.length = 80 then some ⟨l, h⟩ else none

/-- The body of `if ubc_mask & (1 << dv.maskb) != 0`, compress.rs:701-738; `true` for `break`. -/
def hitC (dv : Info) (state : V5 W32) (ctx : Detection) : Option (Bool × V5 W32 × Detection) := do
  let m2 ← arr80 (xorInto ctx.m2.toList ctx.m1.toList dv.dm)
  let ctx := { ctx with m2 := m2 }
  let r ← recompressionStepC dv.testt m2.toList (ctx.saved dv.testt)
  let ctx := { ctx with ihv2 := r.1 }
  if xor5 r.2 state = 0 ∨ (ctx.reducedRoundCollision = true ∧ xor5 ctx.ihv1 ctx.ihv2 = 0) then do
    let ctx := { ctx with foundCollision := true }
    let state ← safeC state ctx
    pure (true, state, ctx)
  else pure (false, state, ctx)

/-- The loop over `SHA1_DVS`, compress.rs:699-739. -/
def tryDvsC (mask : W32) : List Info → V5 W32 → Detection → Option (V5 W32 × Detection)
  | [], state, ctx => some (state, ctx)
  | dv :: rest, state, ctx => do
    let b ← shl 1#32 dv.maskb
    if mask &&& b ≠ 0 then do
      let r ← hitC dv state ctx
      if r.1 then pure r.2 else tryDvsC mask rest r.2.1 r.2.2
    else tryDvsC mask rest state ctx

/-- `if ctx.ubc_check { ubc_check(&ctx.m1) } else { 0xFFFFFFFF }`, compress.rs:691-695. -/
def maskC (ctx : Detection) : Option W32 := if ctx.ubcCheck then ubcCheckC ctx.m1.toList else some 0xFFFFFFFF#32

/-- Body of the block loop of `compress`, compress.rs:675-740. -/
def compress1C (x : V5 W32 × Detection) (block : Bytes) : Option (V5 W32 × Detection) := do
  let state := x.1
  let ctx := { x.2 with ihv1 := state }
  let blockU32 ← load (List.replicate 16 0) block 4 (fromBe 32)
  let r ← compressionStatesC state blockU32 ctx.m1.toList
  let m1 ← arr80 r.w
  let ctx := { ctx with m1 := m1, state58 := r.state58, state65 := r.state65 }
  let mask ← maskC ctx
  if mask ≠ 0 then tryDvsC mask SHA1_DVS r.ihv ctx else some (r.ihv, ctx)

/-- `compress`, compress.rs:668-741. -/
def compressC (x : V5 W32 × Detection) (blks : List Bytes) : Option (V5 W32 × Detection) := blks.foldlM compress1C x

/-- The two cases of `finalize`, compress.rs:764-773. -/
def padC (x : V5 W32 × Detection) (buffer : Bytes) (last left : Nat) : Option ((V5 W32 × Detection) × Bytes) :=
  if 56 ≤ last then do
    let padn ← usub 120 last
    let p ← slice SHA1_PADDING 0 padn
    let pad0 ← slice p 0 left
    let pad1 ← slice p left p.length
    let buffer ← copy buffer last buffer.length pad0
    let x ← compressC x [buffer]
    let buffer ← copy buffer 0 pad1.length pad1
    pure (x, buffer)
  else do
    let padn ← usub 56 last
    let p ← slice SHA1_PADDING 0 padn
    let buffer ← copy buffer last 56 p
    pure (x, buffer)

/-- `buffer[56 + i] = (total >> (56 - 8 i)) as u8`, compress.rs:777-784. -/
def putLenC (buffer : Bytes) (total : W64) : Option Bytes := do
  let y ← shr total 56
  let buffer ← upd buffer 56 (y.setWidth 8)
  let y ← shr total 48
  let buffer ← upd buffer 57 (y.setWidth 8)
  let y ← shr total 40
  let buffer ← upd buffer 58 (y.setWidth 8)
  let y ← shr total 32
  let buffer ← upd buffer 59 (y.setWidth 8)
  let y ← shr total 24
  let buffer ← upd buffer 60 (y.setWidth 8)
  let y ← shr total 16
  let buffer ← upd buffer 61 (y.setWidth 8)
  let y ← shr total 8
  let buffer ← upd buffer 62 (y.setWidth 8)
  upd buffer 63 (total.setWidth 8)

/-- `finalize`, compress.rs:750-787. -/
def finalizeC (x : V5 W32 × Detection) (total : W64) (lastBlock : Bytes) : Option (V5 W32 × Detection) := do
  let total ← add total (BitVec.ofNat 64 lastBlock.length)
  let last := lastBlock.length
  let buffer ← copy (List.replicate 64 0) 0 last lastBlock
  let left ← usub 64 last
  let r ← padC x buffer last left
  let total ← shl total 3
  let buffer ← putLenC r.2 total
  compressC r.1 [buffer]

end Hashes.Sha1Checked
