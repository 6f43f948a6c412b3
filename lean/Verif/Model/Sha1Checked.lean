import Verif.Model.Sha1
import Verif.Model.Sha1Ubc
/-
Model of the collision-detecting SHA-1 hasher: /repo/sha1-checked/src/lib.rs, compress.rs, ubc_check.rs.
The five working registers `a b c d e` of the Rust functions are the five fields of a `V5`; a call such as
`round1_step4(&mut b, &mut c, &mut d, &mut e, &mut a, w, 4)` names the registers by number (`a` = 0 … `e` = 4).
-/
namespace Hashes.Sha1Checked
open Sha1 (K)

/-! ### ubc_check.rs -/

/-- `x`, `x >> k`, `x << k`. -/
def Sh.app (x : W32) : Sh → W32
  | .n => x
  | .r k => x >>> k
  | .l k => x <<< k

/-- `(w[i] …) ^ (w[j] …)`. -/
def Pair.eval (w : Nat → W32) (p : Pair) : W32 := p.si.app (w p.i) ^^^ p.sj.app (w p.j)

/-- `DV_a_BIT | DV_b_BIT | …`, ubc_check.rs:9-40. -/
def bitsOf (dvs : List Nat) : W32 := dvs.foldl (fun m d => m ||| (1#32 <<< d)) 0

/-- Effect of one statement on `mask`. -/
def Stmt.run (w : Nat → W32) (mask : W32) : Stmt → W32
  | .sub guard x o s dvs =>
    if guard = true ∧ mask &&& bitsOf dvs = 0 then mask
    else mask &&& ((((x.eval w >>> o) &&& (1#32 <<< s)) - (1#32 <<< s)) ||| ~~~ bitsOf dvs)
  | .neg guard x o s dvs =>
    if guard = true ∧ mask &&& bitsOf dvs = 0 then mask
    else mask &&& ((0#32 - ((x.eval w >>> o) &&& (1#32 <<< s))) ||| ~~~ bitsOf dvs)
  | .shl dv x k =>
    if mask &&& bitsOf [dv] ≠ 0 then mask &&& ((x.eval w <<< k) ||| ~~~ bitsOf [dv]) else mask
  | .notShr dv x k =>
    if mask &&& bitsOf [dv] ≠ 0 then mask &&& (~~~ (x.eval w >>> k) ||| ~~~ bitsOf [dv]) else mask
  | .test dv cs =>
    if mask &&& bitsOf [dv] ≠ 0 ∧ (cs.any fun c =>
        let y := c.1.eval w &&& (1#32 <<< c.2.1)
        if c.2.2 then y != 0 else y == 0) = true then
      mask &&& ~~~ bitsOf [dv]
    else mask

/-- `ubc_check`, ubc_check.rs:602-1077. -/
def ubcCheck (w : Nat → W32) : W32 :=
  let mask : W32 := ~~~ 0
  let mask := ubcStmts.foldl (Stmt.run w) mask
  if mask ≠ 0 then ubcFinal.foldl (Stmt.run w) mask else mask

/-! ### compress.rs: step functions -/

/-- Register names. -/
abbrev a : Nat := 0
abbrev b : Nat := 1
abbrev c : Nat := 2
abbrev d : Nat := 3
abbrev e : Nat := 4

/-- `mix`, compress.rs:16-18. -/
def mix (w : Arr 32 80) (t : Nat) : W32 :=
  (w.get (t - 3) ^^^ w.get (t - 8) ^^^ w.get (t - 14) ^^^ w.get (t - 16)).rotateLeft 1

/-- `f1`, compress.rs:21-23. -/
def f1 (b c d : W32) : W32 := d ^^^ (b &&& (c ^^^ d))
/-- `f2`, compress.rs:26-28. -/
def f2 (b c d : W32) : W32 := b ^^^ c ^^^ d
/-- `f3`, compress.rs:31-33. -/
def f3 (b c d : W32) : W32 := (b &&& c) + (d &&& (b ^^^ c))
/-- `f4`, compress.rs:36-38. -/
def f4 (b c d : W32) : W32 := b ^^^ c ^^^ d

/-- A step function and its constant `K[i]`. -/
structure Rnd where
  f : W32 → W32 → W32 → W32
  k : W32

/-- The functions and constants of compress.rs:21-38 and :13. -/
def rnd1 : Rnd := ⟨f1, K 0⟩
def rnd2 : Rnd := ⟨f2, K 1⟩
def rnd3 : Rnd := ⟨f3, K 2⟩
def rnd4 : Rnd := ⟨f4, K 3⟩

/-- `round3_step` / `round4_step` (compress.rs:41-60): `e += rotl(a, 5) + f(b, c, d) + K + mt; b = rotl(b, 30)`. -/
def roundStep (r : Rnd) (ra rb rc rd re : Nat) (mt : W32) (v : V5 W32) : V5 W32 :=
  let v := v.set re (v.get re + ((v.get ra).rotateLeft 5 + r.f (v.get rb) (v.get rc) (v.get rd) + r.k + mt))
  v.set rb ((v.get rb).rotateLeft 30)

/-- `roundN_step_bw`, compress.rs:63-104. -/
def roundStepBw (r : Rnd) (ra rb rc rd re : Nat) (mt : W32) (v : V5 W32) : V5 W32 :=
  let v := v.set rb ((v.get rb).rotateRight 30)
  v.set re (v.get re - ((v.get ra).rotateLeft 5 + r.f (v.get rb) (v.get rc) (v.get rd) + r.k + mt))

/-- One of the four groups of `roundN_step4` (compress.rs:129-264, :283-326):
`e += w[t] + rotl(a, 5) + f(b, c, d) + K; b = rotl(b, 30)`. -/
def subStep (r : Rnd) (ra rb rc rd re : Nat) (wt : W32) (v : V5 W32) : V5 W32 :=
  let v := v.set re (v.get re + (wt + (v.get ra).rotateLeft 5 + r.f (v.get rb) (v.get rc) (v.get rd) + r.k))
  v.set rb ((v.get rb).rotateLeft 30)

/-- `roundN_step4`, compress.rs:129-264, :283-326. -/
def roundStep4 (r : Rnd) (ra rb rc rd re : Nat) (w : Nat → W32) (t : Nat) (v : V5 W32) : V5 W32 :=
  let v := subStep r ra rb rc rd re (w t) v
  let v := subStep r re ra rb rc rd (w (t + 1)) v
  let v := subStep r rd re ra rb rc (w (t + 2)) v
  subStep r rc rd re ra rb (w (t + 3)) v

/-- `roundN_step_bw4`, compress.rs:397-458. -/
def roundStepBw4 (r : Rnd) (ra rb rc rd re : Nat) (m : Nat → W32) (t : Nat) (v : V5 W32) : V5 W32 :=
  let v := roundStepBw r ra rb rc rd re (m t) v
  let v := roundStepBw r rb rc rd re ra (m (t - 1)) v
  let v := roundStepBw r rc rd re ra rb (m (t - 2)) v
  roundStepBw r rd re ra rb rc (m (t - 3)) v

/-- Registers and expanded message while compressing. -/
abbrev Work := V5 W32 × Arr 32 80

/-- `full_round3_step` / `full_round4_step`, compress.rs:107-126. -/
def fullStep (r : Rnd) (ra rb rc rd re : Nat) (t : Nat) (x : Work) : Work :=
  let w := x.2.set t (mix x.2 t)
  (subStep r ra rb rc rd re (w.get t) x.1, w)

/-- `full_round1_step_load4`, compress.rs:267-280. -/
def load4 (ra rb rc rd re : Nat) (m : Nat → W32) (t : Nat) (x : Work) : Work :=
  let w := (((x.2.set t (m t)).set (t + 1) (m (t + 1))).set (t + 2) (m (t + 2))).set (t + 3) (m (t + 3))
  (roundStep4 rnd1 ra rb rc rd re w.get t x.1, w)

/-- `full_round1_step_expand4`, `full_round2_step4`, `full_round3_step4`, `full_round4_step4`,
compress.rs:329-394. -/
def expand4 (r : Rnd) (ra rb rc rd re : Nat) (t : Nat) (x : Work) : Work :=
  let w := x.2
  let w := w.set t (mix w t)
  let w := w.set (t + 1) (mix w (t + 1))
  let w := w.set (t + 2) (mix w (t + 2))
  let w := w.set (t + 3) (mix w (t + 3))
  (roundStep4 r ra rb rc rd re w.get t x.1, w)

/-- `add_assign`, compress.rs:460-466. -/
def addAssign (l r : V5 W32) : V5 W32 := l.zip (· + ·) r

/-- `compression_w`, compress.rs:468-496. -/
def compressionW (ihv : V5 W32) (w : Nat → W32) : V5 W32 :=
  let v := ihv
  let v := roundStep4 rnd1 a b c d e w 0 v
  let v := roundStep4 rnd1 b c d e a w 4 v
  let v := roundStep4 rnd1 c d e a b w 8 v
  let v := roundStep4 rnd1 d e a b c w 12 v
  let v := roundStep4 rnd1 e a b c d w 16 v
  let v := roundStep4 rnd2 a b c d e w 20 v
  let v := roundStep4 rnd2 b c d e a w 24 v
  let v := roundStep4 rnd2 c d e a b w 28 v
  let v := roundStep4 rnd2 d e a b c w 32 v
  let v := roundStep4 rnd2 e a b c d w 36 v
  let v := roundStep4 rnd3 a b c d e w 40 v
  let v := roundStep4 rnd3 b c d e a w 44 v
  let v := roundStep4 rnd3 c d e a b w 48 v
  let v := roundStep4 rnd3 d e a b c w 52 v
  let v := roundStep4 rnd3 e a b c d w 56 v
  let v := roundStep4 rnd4 a b c d e w 60 v
  let v := roundStep4 rnd4 b c d e a w 64 v
  let v := roundStep4 rnd4 c d e a b w 68 v
  let v := roundStep4 rnd4 d e a b c w 72 v
  let v := roundStep4 rnd4 e a b c d w 76 v
  addAssign ihv v

/-- What `compression_states` (compress.rs:498-549) leaves in its output arguments. -/
structure States where
  ihv : V5 W32
  w : Arr 32 80
  state58 : V5 W32
  state65 : V5 W32

/-- `compression_states`, compress.rs:498-549. -/
def compressionStates (ihv : V5 W32) (m : Nat → W32) (w : Arr 32 80) : States :=
  let x : Work := (ihv, w)
  let x := load4 a b c d e m 0 x
  let x := load4 b c d e a m 4 x
  let x := load4 c d e a b m 8 x
  let x := load4 d e a b c m 12 x
  let x := expand4 rnd1 e a b c d 16 x
  let x := expand4 rnd2 a b c d e 20 x
  let x := expand4 rnd2 b c d e a 24 x
  let x := expand4 rnd2 c d e a b 28 x
  let x := expand4 rnd2 d e a b c 32 x
  let x := expand4 rnd2 e a b c d 36 x
  let x := expand4 rnd3 a b c d e 40 x
  let x := expand4 rnd3 b c d e a 44 x
  let x := expand4 rnd3 c d e a b 48 x
  let x := expand4 rnd3 d e a b c 52 x
  let x := fullStep rnd3 e a b c d 56 x
  let x := fullStep rnd3 d e a b c 57 x
  let state58 := x.1
  let x := fullStep rnd3 c d e a b 58 x
  let x := fullStep rnd3 b c d e a 59 x
  let x := expand4 rnd4 a b c d e 60 x
  let x := fullStep rnd4 b c d e a 64 x
  let state65 := x.1
  let x := fullStep rnd4 a b c d e 65 x
  let x := fullStep rnd4 e a b c d 66 x
  let x := fullStep rnd4 d e a b c 67 x
  let x := expand4 rnd4 c d e a b 68 x
  let x := expand4 rnd4 d e a b c 72 x
  let x := expand4 rnd4 e a b c d 76 x
  ⟨addAssign ihv x.1, x.2, state58, state65⟩

/-- `recompress_fast_58`, compress.rs:551-596: `(ihvin, ihvout)`. -/
def recompressFast58 (me2 : Nat → W32) (state : V5 W32) : V5 W32 × V5 W32 :=
  let v := state
  let v := roundStepBw rnd3 d e a b c (me2 57) v
  let v := roundStepBw rnd3 e a b c d (me2 56) v
  let v := roundStepBw4 rnd3 a b c d e me2 55 v
  let v := roundStepBw4 rnd3 e a b c d me2 51 v
  let v := roundStepBw4 rnd3 d e a b c me2 47 v
  let v := roundStepBw4 rnd3 c d e a b me2 43 v
  let v := roundStepBw4 rnd2 b c d e a me2 39 v
  let v := roundStepBw4 rnd2 a b c d e me2 35 v
  let v := roundStepBw4 rnd2 e a b c d me2 31 v
  let v := roundStepBw4 rnd2 d e a b c me2 27 v
  let v := roundStepBw4 rnd2 c d e a b me2 23 v
  let v := roundStepBw4 rnd1 b c d e a me2 19 v
  let v := roundStepBw4 rnd1 a b c d e me2 15 v
  let v := roundStepBw4 rnd1 e a b c d me2 11 v
  let v := roundStepBw4 rnd1 d e a b c me2 7 v
  let v := roundStepBw4 rnd1 c d e a b me2 3 v
  let ihvin := v
  let v := state
  let v := roundStep rnd3 c d e a b (me2 58) v
  let v := roundStep rnd3 b c d e a (me2 59) v
  let v := roundStep4 rnd4 a b c d e me2 60 v
  let v := roundStep4 rnd4 b c d e a me2 64 v
  let v := roundStep4 rnd4 c d e a b me2 68 v
  let v := roundStep4 rnd4 d e a b c me2 72 v
  let v := roundStep4 rnd4 e a b c d me2 76 v
  (ihvin, addAssign ihvin v)

/-- `recompress_fast_65`, compress.rs:598-643: `(ihvin, ihvout)`. -/
def recompressFast65 (me2 : Nat → W32) (state : V5 W32) : V5 W32 × V5 W32 :=
  let v := state
  let v := roundStepBw rnd4 b c d e a (me2 64) v
  let v := roundStepBw4 rnd4 c d e a b me2 63 v
  let v := roundStepBw4 rnd3 b c d e a me2 59 v
  let v := roundStepBw4 rnd3 a b c d e me2 55 v
  let v := roundStepBw4 rnd3 e a b c d me2 51 v
  let v := roundStepBw4 rnd3 d e a b c me2 47 v
  let v := roundStepBw4 rnd3 c d e a b me2 43 v
  let v := roundStepBw4 rnd2 b c d e a me2 39 v
  let v := roundStepBw4 rnd2 a b c d e me2 35 v
  let v := roundStepBw4 rnd2 e a b c d me2 31 v
  let v := roundStepBw4 rnd2 d e a b c me2 27 v
  let v := roundStepBw4 rnd2 c d e a b me2 23 v
  let v := roundStepBw4 rnd1 b c d e a me2 19 v
  let v := roundStepBw4 rnd1 a b c d e me2 15 v
  let v := roundStepBw4 rnd1 e a b c d me2 11 v
  let v := roundStepBw4 rnd1 d e a b c me2 7 v
  let v := roundStepBw4 rnd1 c d e a b me2 3 v
  let ihvin := v
  let v := state
  let v := roundStep rnd4 a b c d e (me2 65) v
  let v := roundStep rnd4 e a b c d (me2 66) v
  let v := roundStep rnd4 d e a b c (me2 67) v
  let v := roundStep4 rnd4 c d e a b me2 68 v
  let v := roundStep4 rnd4 d e a b c me2 72 v
  let v := roundStep4 rnd4 e a b c d me2 76 v
  (ihvin, addAssign ihvin v)

/-- `recompression_step`, compress.rs:645-660. -/
def recompressionStep (step : Testt) (me2 : Nat → W32) (state : V5 W32) : V5 W32 × V5 W32 :=
  match step with
  | .T58 => recompressFast58 me2 state
  | .T65 => recompressFast65 me2 state

/-- `xor`, compress.rs:663-665. -/
def xor5 (x y : V5 W32) : W32 :=
  (x.x0 ^^^ y.x0) ||| (x.x1 ^^^ y.x1) ||| (x.x2 ^^^ y.x2) ||| (x.x3 ^^^ y.x3) ||| (x.x4 ^^^ y.x4)

/-! ### lib.rs: detection state -/

/-- `Builder`, lib.rs:263-268. -/
structure Builder where
  detectCollision : Bool
  safeHash : Bool
  ubcCheck : Bool
  reducedRoundCollision : Bool
deriving DecidableEq

/-- `Builder::default`, lib.rs:271-278. -/
def Builder.default : Builder := ⟨true, true, true, false⟩

/-- `DetectionState`, lib.rs:339-352. -/
structure Detection where
  safeHash : Bool
  ubcCheck : Bool
  reducedRoundCollision : Bool
  foundCollision : Bool
  ihv1 : V5 W32
  ihv2 : V5 W32
  m1 : Arr 32 80
  m2 : Arr 32 80
  state58 : V5 W32
  state65 : V5 W32

/-- `Default::default()` of `[u32; 5]` and `[0; 80]`. -/
def zero5 : V5 W32 := ⟨0, 0, 0, 0, 0⟩
def zero80 : Arr 32 80 := Arr.ofFn 80 fun _ => 0

/-- `into_detection_state`, lib.rs:306-323. -/
def Builder.detection (x : Builder) : Option Detection :=
  if x.detectCollision then
    some ⟨x.safeHash, x.ubcCheck, x.reducedRoundCollision, false, zero5, zero5, zero80, zero80, zero5, zero5⟩
  else none

/-- `DetectionState::reset`, lib.rs:363-373. -/
def Detection.reset (x : Detection) : Detection :=
  ⟨x.safeHash, x.ubcCheck, x.reducedRoundCollision, false, zero5, zero5, zero80, zero80, zero5, zero5⟩

/-! ### compress.rs: detection -/

/-- The saved state a vector starts from: the `match dv.testt` of `recompression_step`'s argument, compress.rs:719-722. -/
def Detection.saved (ctx : Detection) : Testt → V5 W32
  | .T58 => ctx.state58
  | .T65 => ctx.state65

/-- Loop over `SHA1_DVS` in `compress` (compress.rs:699-739), with `break` on the first hit. -/
def tryDvs (mask : W32) : List Info → V5 W32 → Detection → V5 W32 × Detection
  | [], state, ctx => (state, ctx)
  | dv :: rest, state, ctx =>
    if mask &&& (1#32 <<< dv.maskb) ≠ 0 then
      let m2 : Arr 32 80 := Arr.ofFn 80 fun i => ctx.m1.get i ^^^ dv.dm.getD i 0
      let ctx := { ctx with m2 := m2 }
      let r := recompressionStep dv.testt m2.get (ctx.saved dv.testt)
      let ctx := { ctx with ihv2 := r.1 }
      let ihvtmp := r.2
      if xor5 ihvtmp state = 0 ∨ (ctx.reducedRoundCollision = true ∧ xor5 ctx.ihv1 ctx.ihv2 = 0) then
        let ctx := { ctx with foundCollision := true }
        if ctx.safeHash then
          (compressionW (compressionW state ctx.m1.get) ctx.m1.get, ctx)
        else (state, ctx)
      else tryDvs mask rest state ctx
    else tryDvs mask rest state ctx

/-- Body of the block loop of `compress`, compress.rs:675-740. -/
def compress1 (x : V5 W32 × Detection) (block : Bytes) : V5 W32 × Detection :=
  let state := x.1
  let ctx := x.2
  let ctx := { ctx with ihv1 := state }
  let r := compressionStates state (wordBE 32 block) ctx.m1
  let ctx := { ctx with m1 := r.w, state58 := r.state58, state65 := r.state65 }
  let state := r.ihv
  let mask : W32 := if ctx.ubcCheck then ubcCheck ctx.m1.get else 0xFFFFFFFF#32
  if mask ≠ 0 then tryDvs mask SHA1_DVS state ctx else (state, ctx)

/-- `compress`, compress.rs:668-741. -/
def compress (x : V5 W32 × Detection) (blks : List Bytes) : V5 W32 × Detection := blks.foldl compress1 x

/-- `SHA1_PADDING`, compress.rs:743-747. -/
def SHA1_PADDING : Bytes := 0x80 :: List.replicate 63 0

/-- `finalize`, compress.rs:750-787.  `total` is in bytes; release-profile wrapping addition. -/
def finalizeChecked (x : V5 W32 × Detection) (total : W64) (lastBlock : Bytes) : V5 W32 × Detection :=
  let total := total + BitVec.ofNat 64 lastBlock.length
  let last := lastBlock.length
  let buffer : Bytes := List.replicate 64 0
  let buffer := overwrite buffer 0 lastBlock
  let left := 64 - last
  let r :=
    if 56 ≤ last then
      let padn := 120 - last
      let pad0 := (SHA1_PADDING.take padn).take left
      let pad1 := (SHA1_PADDING.take padn).drop left
      let buffer := overwrite buffer last pad0
      let x := compress x [buffer]
      (x, overwrite buffer 0 pad1)
    else
      let padn := 56 - last
      (x, overwrite buffer last (SHA1_PADDING.take padn))
  let x := r.1
  let buffer := r.2
  let total := total <<< 3
  let buffer := buffer.set 56 ((total >>> 56).setWidth 8)
  let buffer := buffer.set 57 ((total >>> 48).setWidth 8)
  let buffer := buffer.set 58 ((total >>> 40).setWidth 8)
  let buffer := buffer.set 59 ((total >>> 32).setWidth 8)
  let buffer := buffer.set 60 ((total >>> 24).setWidth 8)
  let buffer := buffer.set 61 ((total >>> 16).setWidth 8)
  let buffer := buffer.set 62 ((total >>> 8).setWidth 8)
  let buffer := buffer.set 63 (total.setWidth 8)
  compress x [buffer]

/-! ### lib.rs: hasher -/

/-- `Sha1` without its buffer, lib.rs:48-53. -/
structure State where
  h : V5 W32
  blockLen : W64
  detection : Option Detection

/-- `CollisionResult`, lib.rs:129-136. -/
inductive Result
  | ok (out : Bytes)
  | mitigated (out : Bytes)
  | collision (out : Bytes)
deriving DecidableEq

/-- `CollisionResult::hash`, lib.rs:140-146. -/
def Result.hash : Result → Bytes
  | .ok s => s
  | .mitigated s => s
  | .collision s => s

/-- `CollisionResult::has_collision`, lib.rs:149-151. -/
def Result.hasCollision : Result → Bool
  | .ok _ => false
  | _ => true

/-- `Builder::build`, lib.rs:326-334. -/
def Builder.build (x : Builder) : State := ⟨Sha1.H0, 0, x.detection⟩

/-- The closure passed to `digest_blocks` in `update`, lib.rs:182-194; `sha1::compress` is the sha1 crate's. -/
def updateBlocks (s : State) (blks : List Bytes) : State :=
  let n := s.blockLen + BitVec.ofNat 64 blks.length
  match s.detection with
  | some ctx => let r := compress (s.h, ctx) blks; ⟨r.1, n, some r.2⟩
  | none => ⟨Sha1.compressSoft s.h blks, n, none⟩

/-- `finalize_inner`, lib.rs:108-124: final chaining value and detection state. -/
def finalizeInner (s : State) (buffer : BlockBuffer) : V5 W32 × Option Detection :=
  let bs : W64 := 64
  match s.detection with
  | some ctx =>
    let r := finalizeChecked (s.h, ctx) (bs * s.blockLen) buffer.content
    (r.1, some r.2)
  | none =>
    let bitLen : W64 := 8 * (BitVec.ofNat 64 buffer.pos + bs * s.blockLen)
    (buffer.len64PaddingBE 64 bitLen (fun st b => Sha1.compressSoft st [b]) s.h, none)

/-- `try_finalize`, lib.rs:93-106 (`finalize_into`, lib.rs:208-210, is the `hash` of this result). -/
def tryFinalize (s : State) (buffer : BlockBuffer) : Result :=
  let r := finalizeInner s buffer
  let out := bytesOfWordsBE r.1.toList
  match r.2 with
  | some ctx =>
    if ctx.foundCollision then
      if ctx.safeHash then .mitigated out else .collision out
    else .ok out
  | none => .ok out

/-- `Reset for Sha1`, lib.rs:161-171 (the buffer is reset by the wrapper). -/
def reset (s : State) : State := ⟨Sha1.H0, 0, s.detection.map Detection.reset⟩

/-- `Sha1` built from a configuration: block size lib.rs:203, `Eager` buffer :52.  The type has no
`SerializableState`; `serialize`/`deserialize` are placeholders never used by the theorems. -/
def sha1Checked (x : Builder) : Core State Result where
  kind := .eager
  bs := 64
  init := x.build
  updateBlocks := updateBlocks
  finalize := tryFinalize
  reset := reset
  serialize := fun _ => []
  deserialize := fun _ => none
  serLen := 0

end Hashes.Sha1Checked
