import Verif.Base.Vec
import Verif.Model.CoreWrapper
/- Model of GOST R 34.11-94: /repo/gost94/src/{gost94_core.rs,params.rs}. `Block = [u8; 32]` is a byte list (of length 32 in
every reachable state), `SBox = [[u8; 16]; 8]` a list of lists. -/
namespace Hashes.Gost94

/-- `C`, gost94_core.rs:20-23 -/
def C : Bytes := [
  0x00, 0xff, 0x00, 0xff, 0x00, 0xff, 0x00, 0xff, 0xff, 0x00, 0xff, 0x00, 0xff, 0x00, 0xff, 0x00,
  0x00, 0xff, 0xff, 0x00, 0xff, 0x00, 0x00, 0xff, 0xff, 0x00, 0x00, 0x00, 0xff, 0xff, 0x00, 0xff]

/-- `sbox`, gost94_core.rs:25-36 -/
def sbox (a : W32) (s : List (List Byte)) : W32 :=
  (List.range 8).foldl (fun v i =>
    let shft := 4 * i
    let k := ((a &&& ((0b1111 : W32) <<< shft)) >>> shft).toNat
    v + (((s.getD i []).getD k 0).setWidth 32 <<< shft)) 0

/-- `g`, gost94_core.rs:38-40 -/
def g (a k : W32) (s : List (List Byte)) : W32 := (sbox (a + k) s).rotateLeft 11

/-- One round of `encrypt`, gost94_core.rs:53-55 on `(a, b)`. -/
def round (s : List (List Byte)) (ab : W32 × W32) (k : W32) : W32 × W32 := (ab.2 ^^^ g ab.1 k s, ab.1)

/-- `encrypt`, gost94_core.rs:43-66: the new contents of the 8-byte slice `msg`. -/
def encrypt (msg key : Bytes) (s : List (List Byte)) : Bytes :=
  let a := wordLE 32 msg 0
  let b := wordLE 32 msg 1
  let k := (List.range 8).map (wordLE 32 key)
  let ab := (List.range 3).foldl (fun ab _ => k.foldl (round s) ab) (a, b)
  let ab := k.reverse.foldl (round s) ab
  leBytes 4 ab.2.toNat ++ leBytes 4 ab.1.toNat

/-- `x`, gost94_core.rs:68-74, and `x_mut` :76-80 -/
def x (a b : Bytes) : Bytes := (List.range 32).map fun i => a.getD i 0 ^^^ b.getD i 0

/-- `a`, gost94_core.rs:82-89 -/
def a (x : Bytes) : Bytes := x.drop 8 ++ (List.range 8).map fun i => x.getD i 0 ^^^ x.getD (i + 8) 0

/-- `p`, gost94_core.rs:91-100: the loop assigns `out[i + 4k] = y[8i + k]`; position `t = i + 4k` has `i = t % 4`, `k = t / 4`. -/
def p (y : Bytes) : Bytes := (List.range 32).map fun t => y.getD (8 * (t % 4) + t / 4) 0

/-- `psi`, gost94_core.rs:102-123 -/
def psi (b : Bytes) : Bytes :=
  b.drop 2 ++ [
    b.getD 0 0 ^^^ b.getD 2 0 ^^^ b.getD 4 0 ^^^ b.getD 6 0 ^^^ b.getD 24 0 ^^^ b.getD 30 0,
    b.getD 1 0 ^^^ b.getD 3 0 ^^^ b.getD 5 0 ^^^ b.getD 7 0 ^^^ b.getD 25 0 ^^^ b.getD 31 0]

/-- `for _ in 0..n { psi(&mut b) }` -/
def psiN : Nat → Bytes → Bytes
  | 0, b => b
  | n + 1, b => psiN n (psi b)

/-- `adc`, gost94_core.rs:126-130: new `a` and new carry. -/
def adc (a b carry : W64) : W64 × W64 :=
  let ret : W128 := a.setWidth 128 + b.setWidth 128 + carry.setWidth 128
  (ret.setWidth 64, (ret >>> 64).setWidth 64)

/-- `shuffle`, gost94_core.rs:142-154 -/
def shuffle (h m s : Bytes) : Bytes :=
  let res := psiN 12 s
  let res := x res m
  let res := psi res
  psiN 61 (x h res)

/-- `f`, gost94_core.rs:156-179. `s` starts as a copy of `h`; each `encrypt` call overwrites its own 8-byte slice. -/
def f (sb : List (List Byte)) (h m : Bytes) : Bytes :=
  let k := p (x h m)
  let s0 := encrypt ((h.drop 0).take 8) k sb
  let u := a h
  let v := a (a m)
  let k := p (x u v)
  let s1 := encrypt ((h.drop 8).take 8) k sb
  let u := a u
  let u := x u C
  let v := a (a v)
  let k := p (x u v)
  let s2 := encrypt ((h.drop 16).take 8) k sb
  let u := a u
  let v := a (a v)
  let k := p (x u v)
  let s3 := encrypt ((h.drop 24).take 8) k sb
  shuffle h m (s0 ++ s1 ++ s2 ++ s3)

/-- `Gost94Core`, gost94_core.rs:133-139 -/
@[ext] structure State where
  h : Bytes
  n : V4 W64
  sigma : V4 W64
deriving DecidableEq

/-- Four `adc` calls with the carry threaded through, starting at 0. -/
def addLimbs (a b : V4 W64) : V4 W64 :=
  let r0 := adc a.x0 b.x0 0
  let r1 := adc a.x1 b.x1 r0.2
  let r2 := adc a.x2 b.x2 r1.2
  let r3 := adc a.x3 b.x3 r2.2
  ⟨r0.1, r1.1, r2.1, r3.1⟩

/-- `update_sigma`, gost94_core.rs:181-187 -/
def updateSigma (sigma : V4 W64) (m : Bytes) : V4 W64 := addLimbs sigma (V4.ofFn (wordLE 64 m))

/-- `update_n`, gost94_core.rs:189-195 (`len: usize`, 64 bits) -/
def updateN (n : V4 W64) (len : W64) : V4 W64 := addLimbs n ⟨len <<< 3, len >>> 61, 0, 0⟩

/-- `compress`, gost94_core.rs:198-201 -/
def compress (sb : List (List Byte)) (s : State) (block : Bytes) : State :=
  ⟨f sb s.h block, s.n, updateSigma s.sigma block⟩

/-- `update_blocks`, gost94_core.rs:220-224. The code adds `32 * blocks.len()` to the counter in one call before compressing;
here 32 is added once per block, which is the same number for every slice of fewer than 2^59 blocks
(`Gost94.updateN_slice`). -/
def updateBlocks (sb : List (List Byte)) (s : State) (blks : List Bytes) : State :=
  let s := ⟨s.h, blks.foldl (fun n _ => updateN n 32) s.n, s.sigma⟩
  blks.foldl (compress sb) s

/-- `finalize_fixed_core`, gost94_core.rs:229-247 -/
def finalize (sb : List (List Byte)) (s : State) (buffer : BlockBuffer) : Bytes :=
  let s := if buffer.pos ≠ 0 then
      let s : State := ⟨s.h, updateN s.n (BitVec.ofNat 64 buffer.pos), s.sigma⟩
      compress sb s (buffer.padWithZeros 32).1
    else s
  let h := f sb s.h (bytesOfWordsLE s.n.toList)
  f sb h (bytesOfWordsLE s.sigma.toList)

/-- `Default`, gost94_core.rs:250-260 -/
def init (h0 : Bytes) : State := ⟨h0, ⟨0, 0, 0, 0⟩, ⟨0, 0, 0, 0⟩⟩

/-- `serialize`, gost94_core.rs:299-313 -/
def serialize (s : State) : Bytes := s.h ++ bytesOfWordsLE s.n.toList ++ bytesOfWordsLE s.sigma.toList

/-- `deserialize`, gost94_core.rs:315-337 -/
def deserialize (raw : Bytes) : Option State :=
  if raw.length = 96 then
    some ⟨raw.take 32, V4.ofFn (wordLE 64 ((raw.drop 32).take 32)), V4.ofFn (wordLE 64 (raw.drop 64))⟩
  else none

/-- `Gost94Core<P>` with `P::S_BOX = sb`, `P::H0 = h0`: `Eager` :211, block size :207, output size :215 -/
def gost94 (sb : List (List Byte)) (h0 : Bytes) : Core State Bytes where
  kind := .eager
  bs := 32
  init := init h0
  updateBlocks := updateBlocks sb
  finalize := finalize sb
  reset := fun _ => init h0
  serialize := serialize
  deserialize := deserialize
  serLen := 96

/-- `CryptoProParam::S_BOX`, params.rs:22-31 -/
def cryptoProBox : List (List Byte) := [
  [10, 4, 5, 6, 8, 1, 3, 7, 13, 12, 14, 0, 9, 2, 11, 15],
  [5, 15, 4, 0, 2, 13, 11, 9, 1, 7, 6, 3, 12, 14, 10, 8],
  [7, 15, 12, 14, 9, 4, 1, 0, 3, 11, 5, 2, 6, 10, 8, 13],
  [4, 10, 7, 12, 0, 15, 2, 8, 14, 1, 6, 5, 13, 11, 9, 3],
  [7, 6, 4, 11, 9, 12, 2, 10, 1, 8, 0, 14, 15, 13, 3, 5],
  [7, 6, 2, 4, 13, 9, 15, 0, 10, 1, 5, 11, 8, 14, 12, 3],
  [13, 14, 4, 1, 7, 0, 5, 10, 3, 12, 8, 15, 6, 2, 9, 11],
  [1, 3, 10, 9, 5, 11, 4, 15, 8, 6, 7, 14, 13, 0, 2, 12]]

/-- `S2015Param::S_BOX`, params.rs:47-56 -/
def s2015Box : List (List Byte) := [
  [12, 4, 6, 2, 10, 5, 11, 9, 14, 8, 13, 7, 0, 3, 15, 1],
  [6, 8, 2, 3, 9, 10, 5, 12, 1, 14, 4, 7, 11, 13, 0, 15],
  [11, 3, 5, 8, 2, 15, 10, 13, 14, 1, 7, 4, 12, 9, 6, 0],
  [12, 8, 2, 1, 13, 4, 15, 6, 7, 0, 10, 5, 3, 14, 9, 11],
  [7, 15, 5, 10, 8, 1, 6, 13, 0, 9, 3, 14, 11, 4, 2, 12],
  [5, 13, 15, 6, 9, 2, 12, 10, 11, 7, 8, 1, 4, 3, 14, 0],
  [8, 14, 2, 5, 6, 9, 1, 12, 15, 4, 11, 0, 13, 10, 3, 7],
  [1, 7, 14, 13, 0, 5, 8, 3, 4, 15, 10, 6, 9, 12, 11, 2]]

/-- `TestParam::S_BOX`, params.rs:66-75 -/
def testBox : List (List Byte) := [
  [4, 10, 9, 2, 13, 8, 0, 14, 6, 11, 1, 12, 7, 15, 5, 3],
  [14, 11, 4, 12, 6, 13, 15, 10, 2, 3, 8, 1, 0, 7, 5, 9],
  [5, 8, 1, 13, 10, 3, 4, 2, 14, 15, 12, 7, 6, 0, 9, 11],
  [7, 13, 10, 1, 0, 8, 9, 15, 14, 4, 6, 12, 11, 2, 5, 3],
  [6, 12, 7, 1, 5, 15, 13, 8, 4, 10, 9, 14, 0, 3, 11, 2],
  [4, 11, 10, 0, 7, 2, 1, 13, 3, 6, 8, 5, 9, 12, 15, 14],
  [13, 11, 4, 1, 3, 15, 5, 9, 0, 10, 14, 7, 6, 8, 2, 12],
  [1, 15, 13, 0, 5, 7, 10, 4, 9, 2, 3, 14, 6, 11, 8, 12]]

/-- `GOST28147UAParam::S_BOX`, params.rs:91-100 -/
def uaBox : List (List Byte) := [
  [10, 9, 13, 6, 14, 11, 4, 5, 15, 1, 3, 12, 7, 0, 8, 2],
  [8, 0, 12, 4, 9, 6, 7, 11, 2, 3, 1, 15, 5, 14, 10, 13],
  [15, 6, 5, 8, 14, 11, 10, 4, 12, 0, 3, 7, 2, 9, 1, 13],
  [3, 8, 13, 9, 6, 11, 15, 0, 2, 5, 12, 10, 4, 14, 1, 7],
  [15, 8, 14, 9, 7, 2, 0, 13, 12, 6, 1, 5, 11, 4, 3, 10],
  [2, 8, 9, 7, 5, 15, 0, 11, 12, 1, 13, 14, 10, 3, 6, 4],
  [3, 8, 11, 5, 6, 4, 14, 10, 2, 12, 1, 7, 9, 15, 13, 0],
  [1, 2, 3, 14, 6, 13, 11, 8, 15, 10, 12, 5, 7, 9, 0, 4]]

/-- `H0` of every parameter set, params.rs:32,:57,:76,:101 -/
def H0 : Bytes := List.replicate 32 0

/-- `Gost94CryptoPro`, lib.rs:38 -/
def cryptoPro : Core State Bytes := gost94 cryptoProBox H0
/-- `Gost94s2015`, lib.rs:40 -/
def s2015 : Core State Bytes := gost94 s2015Box H0
/-- `Gost94Test`, lib.rs:42 -/
def test : Core State Bytes := gost94 testBox H0
/-- `Gost94UA`, lib.rs:45 -/
def ua : Core State Bytes := gost94 uaBox H0

end Hashes.Gost94
