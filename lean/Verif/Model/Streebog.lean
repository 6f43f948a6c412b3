import Verif.Base.Vec
import Verif.Model.VarCore
import Verif.Model.StreebogTables
/- Model of Streebog: /repo/streebog/src/{core_api.rs,consts.rs}. -/
namespace Hashes.Streebog

/-- `A`, consts.rs:9 -/
def A : List W64 := aNat.map (BitVec.ofNat 64)
/-- `P`, consts.rs:77 -/
def P : List Byte := pNat.map (BitVec.ofNat 8)
/-- `C`, consts.rs:94 -/
def C : List Bytes := [cNat0, cNat1, cNat2, cNat3, cNat4, cNat5, cNat6, cNat7, cNat8, cNat9, cNat10, cNat11].map
  (List.map (BitVec.ofNat 8))

/-- `C64`, consts.rs:182-200 -/
def C64 : List (V8 W64) := C.map fun c => V8.ofFn fun j =>
  BitVec.ofNat 64 (ofLE ((List.range 8).map fun k => c.getD (8 * j + k) 0))

/-- One entry of `SHUFFLED_LIN_TABLE`: the inner loop consts.rs:210-218 -/
def accum (i j : Nat) : W64 :=
  (List.range 8).foldl (fun acc k =>
    if P.getD j 0 &&& ((1 : Byte) <<< k) ≠ 0 then acc ^^^ A.getD (8 * i + k) 0 else acc) 0

/-- `SHUFFLED_LIN_TABLE`, consts.rs:204-224 -/
def SHUFFLED_LIN_TABLE : List (List W64) := (List.range 8).map fun i => (List.range 256).map fun j => accum i j

/-- `lps`, core_api.rs:33-48 -/
def lps (h n : V8 W64) : V8 W64 :=
  let h := h.zip (· ^^^ ·) n
  V8.ofFn fun i => (List.range 8).foldl (fun b j =>
    let idx := ((h.get j >>> (8 * i)) &&& 0xff).toNat
    b ^^^ (SHUFFLED_LIN_TABLE.getD j []).getD idx 0) 0

/-- `g`, core_api.rs:50-64 -/
def g (h n m : V8 W64) : V8 W64 :=
  let key := lps h n
  let kb := C64.foldl (fun (kb : V8 W64 × V8 W64) c => (lps kb.1 c, lps kb.2 kb.1)) (key, m)
  V8.ofFn fun i => h.get i ^^^ (kb.2.get i ^^^ kb.1.get i ^^^ m.get i)

/-- `adc`, core_api.rs:197-202: result and carry. -/
def adc (v1 v2 : W64) (carry : Bool) : W64 × Bool :=
  let a := v1 + v2
  let b := decide (a < v1)
  let c := a + (if carry then 1 else 0)
  let d := decide (c < a)
  (c, b || d)

/-- `adc` along two arrays, least significant limb first. -/
def addLimbs : List W64 → List W64 → Bool → List W64
  | x :: xs, y :: ys, c => (adc x y c).1 :: addLimbs xs ys (adc x y c).2
  | _, _, _ => []

/-- `update_sigma`, core_api.rs:68-74 -/
def updateSigma (sigma m : V8 W64) : V8 W64 :=
  let l := addLimbs sigma.toList m.toList false
  V8.ofFn fun i => l.getD i 0

/-- `update_n`, core_api.rs:77-84: limbs 0..6; limb 7 is never written. -/
def updateN (n : V8 W64) (len : W64) : V8 W64 :=
  let l := addLimbs [n.x0, n.x1, n.x2, n.x3, n.x4, n.x5, n.x6] [8 * len, 0, 0, 0, 0, 0, 0] false
  V8.ofFn fun i => if i < 7 then l.getD i 0 else n.x7

/-- `StreebogVarCore`, core_api.rs:26-30 -/
@[ext] structure State where
  h : V8 W64
  n : V8 W64
  sigma : V8 W64
deriving DecidableEq

/-- `from_bytes`, core_api.rs:214-220 -/
def fromBytes (b : Bytes) : V8 W64 := V8.ofFn (wordLE 64 b)

/-- `to_bytes`, core_api.rs:205-211 -/
def toBytes (b : V8 W64) : Bytes := bytesOfWordsLE b.toList

/-- `compress`, core_api.rs:87-92 -/
def compress (s : State) (block : Bytes) (msgLen : W64) : State :=
  let block := fromBytes block
  ⟨g s.h s.n block, updateN s.n msgLen, updateSigma s.sigma block⟩

/-- `[0u64; 8]`, core_api.rs:125, :138 -/
def zero : V8 W64 := ⟨0, 0, 0, 0, 0, 0, 0, 0⟩

/-- `new(output_size)`, core_api.rs:122-130 -/
def new (outputSize : Nat) : Option State :=
  match outputSize with
  | 32 => some ⟨V8.ofFn fun _ => 0x0101010101010101, zero, zero⟩
  | 64 => some ⟨zero, zero, zero⟩
  | _ => none

/-- `update_blocks`, core_api.rs:107-111 -/
def updateBlocks (s : State) (blks : List Bytes) : State := blks.foldl (fun s b => compress s b 64) s

/-- `finalize_variable_core`, core_api.rs:133-141 -/
def finalizeFull (s : State) (buffer : BlockBuffer) : Bytes :=
  let pos := buffer.pos
  let block := (buffer.padWithZeros 64).1
  let block := block.set pos 1
  let s := compress s block (BitVec.ofNat 64 pos)
  let h := g s.h zero s.n
  let h := g h zero s.sigma
  toBytes h

/-- `serialize`, core_api.rs:175-180 -/
def serialize (s : State) : Bytes := toBytes s.h ++ toBytes s.n ++ toBytes s.sigma

/-- `deserialize`, core_api.rs:182-191 -/
def deserialize (raw : Bytes) : Option State :=
  if raw.length = 192 then
    some ⟨fromBytes (raw.take 64), fromBytes ((raw.drop 64).take 64), fromBytes (raw.drop 128)⟩
  else none

/-- `VariableOutputCore for StreebogVarCore`: `Eager` :102, block size :98, output size :115, `TRUNC_SIDE = Right` :119 -/
def varCore : VarCore State where
  kind := .eager
  bs := 64
  outLen := 64
  new := new
  updateBlocks := updateBlocks
  finalizeFull := finalizeFull
  side := .right
  serialize := serialize
  deserialize := deserialize
  serLen := 192

/-- `Streebog256` / `Streebog512`, lib.rs:32,:34 -/
def core (outSize : Nat) : Option (Core State Bytes) := varCore.ct outSize

end Hashes.Streebog
