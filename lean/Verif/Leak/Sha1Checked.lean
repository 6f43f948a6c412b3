import Verif.Base.Leak
import Verif.Checked.Sha1Checked
/-
The collision-detecting compression with what an observer of the memory accesses and branches sees (Base/Leak.lean): Verif/Checked/Sha1Checked.lean,
which says what is modelled, with the operations of Base/Leak.lean.  `&&` and `||` branch.  The five registers are variables; the loop that
fills `m2` shows the whole array; the decision to `break` is the one of the conditions before it.
-/
namespace Hashes.Sha1Checked
open Leak

/-! ### ubc_check.rs -/

/-- `x`, `x >> k`, `x << k`. -/
def Sh.appL (x : W32) : Sh → Leak W32
  | .n => pure x
  | .r k => shr x k
  | .l k => shl x k

/-- `(w[i] …) ^ (w[j] …)`. -/
def Pair.evalL (w : List W32) (p : Pair) : Leak W32 := do
  let x ← idx w p.i
  let x ← p.si.appL x
  let y ← idx w p.j
  let y ← p.sj.appL y
  pure (x ^^^ y)

/-- The `const DV_…_BIT: u32 = 1 << d`, ubc_check.rs:9-40, or-ed together. -/
def bitsOfL (dvs : List Nat) : Leak W32 := dvs.foldlM (fun m d => do
  let b ← shl 1#32 d
  pure (m ||| b)) 0

/-- The conditions of the last part, joined by `||`, which stops at the first that is true. -/
def anyL (w : List W32) : List (Pair × Nat × Bool) → Leak Bool
  | [] => pure false
  | c :: cs => do
    let x ← c.1.evalL w
    let b ← shl 1#32 c.2.1
    let y := x &&& b
    branch ((if c.2.2 then y != 0 else y == 0) = true) (pure true) (anyL w cs)

/-- `((x >> o) & (1 << s)).wrapping_sub(1 << s)` -/
def subTermL (w : List W32) (x : Pair) (o s : Nat) : Leak W32 := do
  let x ← x.evalL w
  let x ← shr x o
  let b ← shl 1#32 s
  pure ((x &&& b) - b)

/-- `0u32.wrapping_sub((x >> o) & (1 << s))` -/
def negTermL (w : List W32) (x : Pair) (o s : Nat) : Leak W32 := do
  let x ← x.evalL w
  let x ← shr x o
  let b ← shl 1#32 s
  pure (0#32 - (x &&& b))

/-- `mask &= term | !bits` unless it is guarded by `if mask & bits != 0` and the guard is false. -/
def guardedL (guard : Bool) (mask bits : W32) (term : Leak W32) : Leak W32 :=
  if guard then branch (mask &&& bits ≠ 0) (do
    let t ← term
    pure (mask &&& (t ||| ~~~ bits))) (pure mask)
  else do
    let t ← term
    pure (mask &&& (t ||| ~~~ bits))

/-- `if mask & bit != 0 && cond { mask &= !bit }` -/
def testedL (mask bit : W32) (cond : Leak Bool) : Leak W32 :=
  branch (mask &&& bit ≠ 0) (do
    let c ← cond
    branch (c = true) (pure (mask &&& ~~~ bit)) (pure mask)) (pure mask)

/-- `x << k` in `mask &= …` -/
def shlTermL (w : List W32) (x : Pair) (k : Nat) : Leak W32 := do
  let x ← x.evalL w
  shl x k

/-- `!(x >> k)` -/
def notShrTermL (w : List W32) (x : Pair) (k : Nat) : Leak W32 := do
  let x ← x.evalL w
  let x ← shr x k
  pure (~~~ x)

/-- One statement of `ubc_check`. -/
def Stmt.runL (w : List W32) (mask : W32) : Stmt → Leak W32
  | .sub guard x o s dvs => do
    let bits ← bitsOfL dvs
    guardedL guard mask bits (subTermL w x o s)
  | .neg guard x o s dvs => do
    let bits ← bitsOfL dvs
    guardedL guard mask bits (negTermL w x o s)
  | .shl dv x k => do
    let bits ← bitsOfL [dv]
    guardedL true mask bits (shlTermL w x k)
  | .notShr dv x k => do
    let bits ← bitsOfL [dv]
    guardedL true mask bits (notShrTermL w x k)
  | .test dv cs => do
    let bits ← bitsOfL [dv]
    testedL mask bits (anyL w cs)

/-- `ubc_check`, ubc_check.rs:602-1077. -/
def ubcCheckL (w : List W32) : Leak W32 := do
  let mask ← ubcStmts.foldlM (Stmt.runL w) (~~~ 0)
  branch (mask ≠ 0) (ubcFinal.foldlM (Stmt.runL w) mask) (pure mask)

/-! ### compress.rs -/

/-- `mix`, compress.rs:16-18. -/
def mixL (w : List W32) (t : Nat) : Leak W32 := do
  let i ← usub t 3
  let x3 ← idx w i
  let i ← usub t 8
  let x8 ← idx w i
  let i ← usub t 14
  let x14 ← idx w i
  let i ← usub t 16
  let x16 ← idx w i
  pure ((x3 ^^^ x8 ^^^ x14 ^^^ x16).rotateLeft 1)

/-- `roundN_step4`, compress.rs:129-264, :283-326. -/
def roundStep4L (r : Rnd) (ra rb rc rd re : Nat) (w : List W32) (t : Nat) (v : V5 W32) : Leak (V5 W32) := do
  let wt ← idx w t
  let v := subStep r ra rb rc rd re wt v
  let wt ← idx w (t + 1)
  let v := subStep r re ra rb rc rd wt v
  let wt ← idx w (t + 2)
  let v := subStep r rd re ra rb rc wt v
  let wt ← idx w (t + 3)
  pure (subStep r rc rd re ra rb wt v)

/-- `roundN_step_bw4`, compress.rs:397-458. -/
def roundStepBw4L (r : Rnd) (ra rb rc rd re : Nat) (m : List W32) (t : Nat) (v : V5 W32) : Leak (V5 W32) := do
  let mt ← idx m t
  let v := roundStepBw r ra rb rc rd re mt v
  let i ← usub t 1
  let mt ← idx m i
  let v := roundStepBw r rb rc rd re ra mt v
  let i ← usub t 2
  let mt ← idx m i
  let v := roundStepBw r rc rd re ra rb mt v
  let i ← usub t 3
  let mt ← idx m i
  pure (roundStepBw r rd re ra rb rc mt v)

/-- `full_round3_step` / `full_round4_step`, compress.rs:107-126. -/
def fullStepL (r : Rnd) (ra rb rc rd re : Nat) (t : Nat) (x : WorkC) : Leak WorkC := do
  let y ← mixL x.2 t
  let w ← upd x.2 t y
  let wt ← idx w t
  pure (subStep r ra rb rc rd re wt x.1, w)

/-- `full_round1_step_load4`, compress.rs:267-280. -/
def load4L (ra rb rc rd re : Nat) (m : List W32) (t : Nat) (x : WorkC) : Leak WorkC := do
  let s ← slice m t (t + 4)
  let w ← copy x.2 t (t + 4) s
  let v ← roundStep4L rnd1 ra rb rc rd re w t x.1
  pure (v, w)

/-- `full_round1_step_expand4`, `full_round2_step4`, `full_round3_step4`, `full_round4_step4`, compress.rs:329-394. -/
def expand4L (r : Rnd) (ra rb rc rd re : Nat) (t : Nat) (x : WorkC) : Leak WorkC := do
  let y ← mixL x.2 t
  let w ← upd x.2 t y
  let y ← mixL w (t + 1)
  let w ← upd w (t + 1) y
  let y ← mixL w (t + 2)
  let w ← upd w (t + 2) y
  let y ← mixL w (t + 3)
  let w ← upd w (t + 3) y
  let v ← roundStep4L r ra rb rc rd re w t x.1
  pure (v, w)

/-- `compression_w`, compress.rs:468-496. -/
def compressionWL (ihv : V5 W32) (w : List W32) : Leak (V5 W32) := do
  let v := ihv
  let v ← roundStep4L rnd1 a b c d e w 0 v
  let v ← roundStep4L rnd1 b c d e a w 4 v
  let v ← roundStep4L rnd1 c d e a b w 8 v
  let v ← roundStep4L rnd1 d e a b c w 12 v
  let v ← roundStep4L rnd1 e a b c d w 16 v
  let v ← roundStep4L rnd2 a b c d e w 20 v
  let v ← roundStep4L rnd2 b c d e a w 24 v
  let v ← roundStep4L rnd2 c d e a b w 28 v
  let v ← roundStep4L rnd2 d e a b c w 32 v
  let v ← roundStep4L rnd2 e a b c d w 36 v
  let v ← roundStep4L rnd3 a b c d e w 40 v
  let v ← roundStep4L rnd3 b c d e a w 44 v
  let v ← roundStep4L rnd3 c d e a b w 48 v
  let v ← roundStep4L rnd3 d e a b c w 52 v
  let v ← roundStep4L rnd3 e a b c d w 56 v
  let v ← roundStep4L rnd4 a b c d e w 60 v
  let v ← roundStep4L rnd4 b c d e a w 64 v
  let v ← roundStep4L rnd4 c d e a b w 68 v
  let v ← roundStep4L rnd4 d e a b c w 72 v
  let v ← roundStep4L rnd4 e a b c d w 76 v
  pure (addAssign ihv v)

/-- `compression_states`, compress.rs:498-549. -/
def compressionStatesL (ihv : V5 W32) (m w : List W32) : Leak StatesC := do
  let x : WorkC := (ihv, w)
  let x ← load4L a b c d e m 0 x
  let x ← load4L b c d e a m 4 x
  let x ← load4L c d e a b m 8 x
  let x ← load4L d e a b c m 12 x
  let x ← expand4L rnd1 e a b c d 16 x
  let x ← expand4L rnd2 a b c d e 20 x
  let x ← expand4L rnd2 b c d e a 24 x
  let x ← expand4L rnd2 c d e a b 28 x
  let x ← expand4L rnd2 d e a b c 32 x
  let x ← expand4L rnd2 e a b c d 36 x
  let x ← expand4L rnd3 a b c d e 40 x
  let x ← expand4L rnd3 b c d e a 44 x
  let x ← expand4L rnd3 c d e a b 48 x
  let x ← expand4L rnd3 d e a b c 52 x
  let x ← fullStepL rnd3 e a b c d 56 x
  let x ← fullStepL rnd3 d e a b c 57 x
  let state58 := x.1
  let x ← fullStepL rnd3 c d e a b 58 x
  let x ← fullStepL rnd3 b c d e a 59 x
  let x ← expand4L rnd4 a b c d e 60 x
  let x ← fullStepL rnd4 b c d e a 64 x
  let state65 := x.1
  let x ← fullStepL rnd4 a b c d e 65 x
  let x ← fullStepL rnd4 e a b c d 66 x
  let x ← fullStepL rnd4 d e a b c 67 x
  let x ← expand4L rnd4 c d e a b 68 x
  let x ← expand4L rnd4 d e a b c 72 x
  let x ← expand4L rnd4 e a b c d 76 x
  pure ⟨addAssign ihv x.1, x.2, state58, state65⟩

/-- `recompress_fast_58`, compress.rs:551-596. -/
def recompressFast58L (me2 : List W32) (state : V5 W32) : Leak (V5 W32 × V5 W32) := do
  let v := state
  let mt ← idx me2 57
  let v := roundStepBw rnd3 d e a b c mt v
  let mt ← idx me2 56
  let v := roundStepBw rnd3 e a b c d mt v
  let v ← roundStepBw4L rnd3 a b c d e me2 55 v
  let v ← roundStepBw4L rnd3 e a b c d me2 51 v
  let v ← roundStepBw4L rnd3 d e a b c me2 47 v
  let v ← roundStepBw4L rnd3 c d e a b me2 43 v
  let v ← roundStepBw4L rnd2 b c d e a me2 39 v
  let v ← roundStepBw4L rnd2 a b c d e me2 35 v
  let v ← roundStepBw4L rnd2 e a b c d me2 31 v
  let v ← roundStepBw4L rnd2 d e a b c me2 27 v
  let v ← roundStepBw4L rnd2 c d e a b me2 23 v
  let v ← roundStepBw4L rnd1 b c d e a me2 19 v
  let v ← roundStepBw4L rnd1 a b c d e me2 15 v
  let v ← roundStepBw4L rnd1 e a b c d me2 11 v
  let v ← roundStepBw4L rnd1 d e a b c me2 7 v
  let v ← roundStepBw4L rnd1 c d e a b me2 3 v
  let ihvin := v
  let v := state
  let mt ← idx me2 58
  let v := roundStep rnd3 c d e a b mt v
  let mt ← idx me2 59
  let v := roundStep rnd3 b c d e a mt v
  let v ← roundStep4L rnd4 a b c d e me2 60 v
  let v ← roundStep4L rnd4 b c d e a me2 64 v
  let v ← roundStep4L rnd4 c d e a b me2 68 v
  let v ← roundStep4L rnd4 d e a b c me2 72 v
  let v ← roundStep4L rnd4 e a b c d me2 76 v
  pure (ihvin, addAssign ihvin v)

/-- `recompress_fast_65`, compress.rs:598-643. -/
def recompressFast65L (me2 : List W32) (state : V5 W32) : Leak (V5 W32 × V5 W32) := do
  let v := state
  let mt ← idx me2 64
  let v := roundStepBw rnd4 b c d e a mt v
  let v ← roundStepBw4L rnd4 c d e a b me2 63 v
  let v ← roundStepBw4L rnd3 b c d e a me2 59 v
  let v ← roundStepBw4L rnd3 a b c d e me2 55 v
  let v ← roundStepBw4L rnd3 e a b c d me2 51 v
  let v ← roundStepBw4L rnd3 d e a b c me2 47 v
  let v ← roundStepBw4L rnd3 c d e a b me2 43 v
  let v ← roundStepBw4L rnd2 b c d e a me2 39 v
  let v ← roundStepBw4L rnd2 a b c d e me2 35 v
  let v ← roundStepBw4L rnd2 e a b c d me2 31 v
  let v ← roundStepBw4L rnd2 d e a b c me2 27 v
  let v ← roundStepBw4L rnd2 c d e a b me2 23 v
  let v ← roundStepBw4L rnd1 b c d e a me2 19 v
  let v ← roundStepBw4L rnd1 a b c d e me2 15 v
  let v ← roundStepBw4L rnd1 e a b c d me2 11 v
  let v ← roundStepBw4L rnd1 d e a b c me2 7 v
  let v ← roundStepBw4L rnd1 c d e a b me2 3 v
  let ihvin := v
  let v := state
  let mt ← idx me2 65
  let v := roundStep rnd4 a b c d e mt v
  let mt ← idx me2 66
  let v := roundStep rnd4 e a b c d mt v
  let mt ← idx me2 67
  let v := roundStep rnd4 d e a b c mt v
  let v ← roundStep4L rnd4 c d e a b me2 68 v
  let v ← roundStep4L rnd4 d e a b c me2 72 v
  let v ← roundStep4L rnd4 e a b c d me2 76 v
  pure (ihvin, addAssign ihvin v)

/-- `recompression_step`, compress.rs:645-660. -/
def recompressionStepL (step : Testt) (me2 : List W32) (state : V5 W32) : Leak (V5 W32 × V5 W32) :=
  match step with
  | .T58 => recompressFast58L me2 state
  | .T65 => recompressFast65L me2 state

/-- `if ctx.safe_hash { compression_w(state, &ctx.m1); compression_w(state, &ctx.m1); }`, compress.rs:730-733. -/
def safeL (state : V5 W32) (ctx : Detection) : Leak (V5 W32) :=
  branch (ctx.safeHash = true) (do
    let state ← compressionWL state ctx.m1.toList
    compressionWL state ctx.m1.toList) (pure state)

/-- The body of `if ubc_mask & (1 << dv.maskb) != 0`, compress.rs:701-738; `true` for `break`. -/
def hitL (dv : Info) (state : V5 W32) (ctx : Detection) : Leak (Bool × V5 W32 × Detection) := do
  let m2 ← emit (.range 0 80) (arr80 (xorInto ctx.m2.toList ctx.m1.toList dv.dm))
  let ctx := { ctx with m2 := m2 }
  let r ← recompressionStepL dv.testt m2.toList (ctx.saved dv.testt)
  let ctx := { ctx with ihv2 := r.1 }
  let found : Leak (Bool × V5 W32 × Detection) := do
    let ctx := { ctx with foundCollision := true }
    let state ← safeL state ctx
    pure (true, state, ctx)
  branch (xor5 r.2 state = 0) found
    (branch (ctx.reducedRoundCollision = true) (branch (xor5 ctx.ihv1 ctx.ihv2 = 0) found (pure (false, state, ctx))) (pure (false, state, ctx)))

/-- The loop over `SHA1_DVS`, compress.rs:699-739. -/
def tryDvsL (mask : W32) : List Info → V5 W32 → Detection → Leak (V5 W32 × Detection)
  | [], state, ctx => pure (state, ctx)
  | dv :: rest, state, ctx => do
    let b ← shl 1#32 dv.maskb
    branch (mask &&& b ≠ 0) (do
      let r ← hitL dv state ctx
      if r.1 then pure r.2 else tryDvsL mask rest r.2.1 r.2.2) (tryDvsL mask rest state ctx)

/-- `if ctx.ubc_check { ubc_check(&ctx.m1) } else { 0xFFFFFFFF }`, compress.rs:691-695. -/
def maskL (ctx : Detection) : Leak W32 := branch (ctx.ubcCheck = true) (ubcCheckL ctx.m1.toList) (pure 0xFFFFFFFF#32)

/-- Body of the block loop of `compress`, compress.rs:675-740. -/
def compress1L (x : V5 W32 × Detection) (block : Bytes) : Leak (V5 W32 × Detection) := do
  let state := x.1
  let ctx := { x.2 with ihv1 := state }
  let blockU32 ← load (List.replicate 16 0) block 4 (fromBe 32)
  let r ← compressionStatesL state blockU32 ctx.m1.toList
  let m1 ← (⟨arr80 r.w, []⟩ : Leak (Arr 32 80))
  let ctx := { ctx with m1 := m1, state58 := r.state58, state65 := r.state65 }
  let mask ← maskL ctx
  branch (mask ≠ 0) (tryDvsL mask SHA1_DVS r.ihv ctx) (pure (r.ihv, ctx))

/-- `compress`, compress.rs:668-741. -/
def compressL (x : V5 W32 × Detection) (blks : List Bytes) : Leak (V5 W32 × Detection) := blks.foldlM compress1L x

end Hashes.Sha1Checked
