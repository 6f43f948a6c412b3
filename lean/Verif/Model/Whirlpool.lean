import Verif.Base.Vec
import Verif.Model.CoreWrapper
import Verif.Model.WhirlpoolTables
/- Model of Whirlpool: /repo/whirlpool/src/{lib.rs,compress.rs,consts.rs}. -/
namespace Hashes.Whirlpool

/-- `[C0, …, C7]`, consts.rs:18-2088 -/
def C : List (List W64) := [tabNat0, tabNat1, tabNat2, tabNat3, tabNat4, tabNat5, tabNat6, tabNat7].map (List.map (BitVec.ofNat 64))
/-- `RC`, consts.rs:5-16 -/
def RC : List W64 := rcNat.map (BitVec.ofNat 64)

/-- `Cj[((k[a] >> 8j) & 0xff) as usize]`, compress.rs:21-28 -/
def look (k : V8 W64) (j a : Nat) : W64 := (C.getD j []).getD ((k.get a >>> (8 * j)) &&& 0xff).toNat 0

/-- The eight-term XOR of compress.rs:21-28 and :33-40. -/
def line (k : V8 W64) (i : Nat) : W64 :=
  look k 0 (i % 8) ^^^ look k 1 ((7 + i) % 8) ^^^ look k 2 ((6 + i) % 8) ^^^ look k 3 ((5 + i) % 8) ^^^
  look k 4 ((4 + i) % 8) ^^^ look k 5 ((3 + i) % 8) ^^^ look k 6 ((2 + i) % 8) ^^^ look k 7 ((1 + i) % 8)

/-- Loop body of compress.rs:19-44: `(k, s)` to the next `(k, s)`. -/
def roundBody (ks : V8 W64 × V8 W64) (r : Nat) : V8 W64 × V8 W64 :=
  let k := V8.ofFn fun i => line ks.1 i ^^^ (if i = 0 then RC.getD r 0 else 0)
  let s := V8.ofFn fun i => line ks.2 i ^^^ k.get i
  (k, s)

/-- `compress_block`, compress.rs:3-49 -/
def compress (state : V8 W64) (b : Bytes) : V8 W64 :=
  let block := V8.ofFn (wordLE 64 b)
  let k := state
  let s := block.zip (· ^^^ ·) k
  let ks := (List.range 10).foldl roundBody (k, s)
  state.zip (· ^^^ ·) (ks.2.zip (· ^^^ ·) block)

/-- `WhirlpoolCore`, lib.rs:36-41 -/
@[ext] structure State where
  bitLen : V4 W64
  state : V8 W64
deriving DecidableEq

/-- `default()`, lib.rs:113-118 -/
def init : State := ⟨⟨0, 0, 0, 0⟩, ⟨0, 0, 0, 0, 0, 0, 0, 0⟩⟩

/-- `adc`, lib.rs:95-99; `(new a, new carry)`. The sum is a `u128` and cannot overflow. -/
def adc (a b carry : W64) : W64 × W64 :=
  let ret : W128 := a.setWidth 128 + b.setWidth 128 + carry.setWidth 128
  (ret.setWidth 64, (ret >>> 64).setWidth 64)

/-- `update_len`, lib.rs:93-106 -/
def updateLen (bitLen : V4 W64) (len : W64) : V4 W64 :=
  let r := adc bitLen.x3 len 0; let x3 := r.1
  let r := adc bitLen.x2 0 r.2; let x2 := r.1
  let r := adc bitLen.x1 0 r.2; let x1 := r.1
  let r := adc bitLen.x0 0 r.2; let x0 := r.1
  ⟨x0, x1, x2, x3⟩

/-- `update_blocks`, lib.rs:62-67. The Rust code calls `update_len(512 * blocks.len())` once; the model adds 512 per
block. The two agree as long as `512 * blocks.len() < 2^64` (`C30_whirlpool_slice`), i.e. for slices below 2^61 bytes;
longer slices cannot be allocated. -/
def updateBlocks (s : State) (blks : List Bytes) : State :=
  ⟨blks.foldl (fun l _ => updateLen l 512) s.bitLen, blks.foldl compress s.state⟩

/-- `finalize_fixed_core`, lib.rs:72-89 -/
def finalize (s : State) (buffer : BlockBuffer) : Bytes :=
  let bitLen := updateLen s.bitLen (8 * BitVec.ofNat 64 buffer.pos)
  let buf := bytesOfWordsBE bitLen.toList
  let st := buffer.digestPad 64 0x80 buf compress s.state
  bytesOfWordsLE st.toList

/-- `serialize`, lib.rs:153-170 -/
def serialize (s : State) : Bytes := bytesOfWordsLE s.state.toList ++ bytesOfWordsLE s.bitLen.toList

/-- `deserialize`, lib.rs:172-188 -/
def deserialize (raw : Bytes) : Option State :=
  if raw.length = 96 then
    some ⟨V4.ofFn (wordLE 64 (raw.drop 64)), V8.ofFn (wordLE 64 raw)⟩
  else none

/-- `Whirlpool = CoreWrapper<WhirlpoolCore>`, lib.rs:44 (block size :49, `Eager` :53, reset :123-125). -/
def whirlpool : Core State Bytes where
  kind := .eager
  bs := 64
  init := init
  updateBlocks := updateBlocks
  finalize := finalize
  reset := fun _ => init
  serialize := serialize
  deserialize := deserialize
  serLen := 96

end Hashes.Whirlpool
