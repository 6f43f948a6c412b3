import Verif.Model.Xof
/-
Model of the sha3 crate: /repo/sha3/src/{lib,state,macros}.rs.  `keccak::p1600` is the external crate
keccak 0.2.0-pre.0 (trusted transcription, DESIGN.md §3).
-/
namespace Hashes.Sha3

/-! ### External: `keccak::p1600` -/
namespace P1600

/-- `RHO` of the keccak crate. -/
def RHO : List Nat := [1, 3, 6, 10, 15, 21, 28, 36, 45, 55, 2, 14, 27, 41, 56, 8, 25, 43, 62, 18, 39, 61, 20, 44]
/-- `PI` of the keccak crate. -/
def PI : List Nat := [10, 7, 11, 17, 18, 3, 5, 16, 8, 21, 24, 4, 15, 23, 19, 13, 12, 2, 20, 14, 22, 9, 6, 1]
/-- `RC` of the keccak crate. -/
def RC : List W64 := [
  0x0000000000000001, 0x0000000000008082, 0x800000000000808a, 0x8000000080008000, 0x000000000000808b,
  0x0000000080000001, 0x8000000080008081, 0x8000000000008009, 0x000000000000008a, 0x0000000000000088,
  0x0000000080008009, 0x000000008000000a, 0x000000008000808b, 0x800000000000008b, 0x8000000000008089,
  0x8000000000008003, 0x8000000000008002, 0x8000000000000080, 0x000000000000800a, 0x800000008000000a,
  0x8000000080008081, 0x8000000000008080, 0x0000000080000001, 0x8000000080008008]

/-- Column parities. -/
def parity (s : List W64) : List W64 :=
  (List.range 5).map fun x => (List.range 5).foldl (fun a y => a ^^^ s.getD (5 * y + x) 0) 0
/-- Theta. -/
def theta (s : List W64) : List W64 :=
  let c := parity s
  let d := (List.range 5).map fun x => c.getD ((x + 4) % 5) 0 ^^^ (c.getD ((x + 1) % 5) 0).rotateLeft 1
  (List.range 25).map fun i => s.getD i 0 ^^^ d.getD (i % 5) 0
/-- Rho and pi: one in-place cycle through 24 lanes. -/
def rhoPi (s : List W64) : List W64 :=
  ((List.range 24).foldl (fun (a : List W64 × W64) x =>
    (a.1.set (PI.getD x 0) (a.2.rotateLeft (RHO.getD x 0)), a.1.getD (PI.getD x 0) 0)) (s, s.getD 1 0)).1
/-- Chi. -/
def chi (s : List W64) : List W64 :=
  (List.range 25).map fun i =>
    s.getD i 0 ^^^ (~~~(s.getD (5 * (i / 5) + (i % 5 + 1) % 5) 0) &&& s.getD (5 * (i / 5) + (i % 5 + 2) % 5) 0)
/-- Iota. -/
def iota (rc : W64) (s : List W64) : List W64 := s.set 0 (s.getD 0 0 ^^^ rc)

/-- `keccak::p1600(state, rounds)`: the last `rounds` round constants (panics for more than 24). -/
def p1600 (rounds : Nat) (s : List W64) : List W64 :=
  (RC.drop (24 - rounds)).foldl (fun s rc => iota rc (chi (rhoPi (theta s)))) s

end P1600

/-! ### state.rs -/

/-- A `[u64; 25]`; the round count is the permutation argument `f` (`p1600 ROUNDS`). -/
abbrev Lanes := List W64

/-- `Sha3State::default()`, state.rs:9-15 -/
def zero : Lanes := List.replicate 25 0

/-- The loop of `absorb_block`, state.rs:21-23: `zip` of 8-byte chunks and lanes. -/
def xorLanes : List Bytes → Lanes → Lanes
  | b :: bs, w :: ws => (w ^^^ BitVec.ofNat 64 (ofLE b)) :: xorLanes bs ws
  | _, ws => ws

/-- `absorb_block`, state.rs:18-26 -/
def absorbBlock (f : Lanes → Lanes) (s : Lanes) (block : Bytes) : Lanes := f (xorLanes (chunks 8 block) s)

/-- `as_bytes(out)` with `out.len() = n`, state.rs:28-32: `chunks_mut(8)` has a shorter last chunk. -/
def asBytes : Nat → Lanes → Bytes
  | _, [] => []
  | n, w :: ws => (leBytes 8 w.toNat).take (min 8 n) ++ asBytes (n - 8) ws

/-! ### macros.rs -/

/-- The last block of every sponge in the crate: `pad_with_zeros`, `block[pos] = pad`, `block[n-1] |= 0x80`
(macros.rs:45-49, 184-188, 353-357, 554-558). -/
def lastBlock (bs : Nat) (buffer : BlockBuffer) (pad : Byte) : Bytes :=
  let pos := buffer.pos
  let block := (buffer.padWithZeros bs).1
  let block := block.set pos pad
  let n := block.length
  block.set (n - 1) (block.getD (n - 1) 0 ||| 0x80)

/-- `update_blocks`, macros.rs:35-39, 172-176, 341-345, 542-546 -/
def updateBlocks (f : Lanes → Lanes) (s : Lanes) (blks : List Bytes) : Lanes := blks.foldl (absorbBlock f) s

/-- `serialize`, macros.rs:100-113 -/
def serialize (s : Lanes) : Bytes := bytesOfWordsLE s
/-- `deserialize`, macros.rs:115-126 -/
def deserialize (raw : Bytes) : Option Lanes :=
  if raw.length = 200 then some ((List.range 25).map (wordLE 64 raw)) else none

/-- `impl_sha3!($name, $full_name, $output_size, $rate, $pad, ..)`, macros.rs:1-140. -/
def fixed (f : Lanes → Lanes) (outSize rate : Nat) (pad : Byte) : Core Lanes Bytes where
  kind := .eager
  bs := rate
  init := zero
  updateBlocks := updateBlocks f
  finalize := fun s buffer => asBytes outSize (absorbBlock f s (lastBlock rate buffer pad))
  reset := fun _ => zero
  serialize := serialize
  deserialize := deserialize
  serLen := 200

/-- `Sha3State<24>`'s permutation. -/
def f24 : Lanes → Lanes := P1600.p1600 24
/-- `Sha3State<TURBO_SHAKE_ROUND_COUNT>`'s permutation, lib.rs:45. -/
def f12 : Lanes → Lanes := P1600.p1600 12

/-- lib.rs:47 -/
def keccak224 := fixed f24 28 144 0x01
/-- lib.rs:48 -/
def keccak256 := fixed f24 32 136 0x01
/-- lib.rs:49 -/
def keccak384 := fixed f24 48 104 0x01
/-- lib.rs:50 -/
def keccak512 := fixed f24 64 72 0x01
/-- lib.rs:52-59 -/
def keccak256Full := fixed f24 200 136 0x01
/-- lib.rs:61-69 -/
def sha3_224 := fixed f24 28 144 0x06
/-- lib.rs:70-78 -/
def sha3_256 := fixed f24 32 136 0x06
/-- lib.rs:79-87 -/
def sha3_384 := fixed f24 48 104 0x06
/-- lib.rs:88-96 -/
def sha3_512 := fixed f24 64 72 0x06

/-- `XofReaderCore::read_block`, macros.rs:254-262, 415-423, 619-627. -/
def xof (f : Lanes → Lanes) (rate : Nat) : XofCore Lanes where
  bs := rate
  readBlock := fun s => (asBytes rate s, f s)

/-- `impl_shake!`, macros.rs:142-295.  The result of finalization is the reader core.
There is no `SerializableState` implementation for the XOFs; the serialization fields are unused. -/
def shake (f : Lanes → Lanes) (rate : Nat) (pad : Byte) : Core Lanes Lanes where
  kind := .eager
  bs := rate
  init := zero
  updateBlocks := updateBlocks f
  finalize := fun s buffer => absorbBlock f s (lastBlock rate buffer pad)
  reset := fun _ => zero
  serialize := fun _ => []
  deserialize := fun _ => none
  serLen := 0

/-- lib.rs:98-107 -/
def shake128 := shake f24 168 0x1f
/-- lib.rs:108-117 -/
def shake256 := shake f24 136 0x1f

/-! #### TurboSHAKE -/

/-- `struct $name { state, domain_separation }`, macros.rs:307-310. -/
@[ext] structure Turbo where
  state : Lanes
  domain : Byte
deriving DecidableEq

/-- `$name::new(domain_separation)`, macros.rs:320-326; `none` = the `assert!` panics. -/
def Turbo.new (d : Byte) : Option Turbo :=
  if 0x01 ≤ d ∧ d ≤ 0x7F then some ⟨zero, d⟩ else none

/-- `impl_turbo_shake!` around a constructed core, macros.rs:297-448.  `reset` (macros.rs:366-371) re-runs `new`
with the stored byte; on states built by `new` its `assert!` cannot fail. -/
def turbo (f : Lanes → Lanes) (rate : Nat) (init : Turbo) : Core Turbo Lanes where
  kind := .eager
  bs := rate
  init := init
  updateBlocks := fun s b => { s with state := updateBlocks f s.state b }
  finalize := fun s buffer => absorbBlock f s.state (lastBlock rate buffer s.domain)
  reset := fun s => (Turbo.new s.domain).getD s
  serialize := fun _ => []
  deserialize := fun _ => none
  serLen := 0

/-- `TurboShake128::from_core(TurboShake128Core::new(d))`, lib.rs:119-126 -/
def turboShake128 (d : Byte) : Option (Core Turbo Lanes) := (Turbo.new d).map (turbo f12 168)
/-- `TurboShake256::from_core(TurboShake256Core::new(d))`, lib.rs:127-134 -/
def turboShake256 (d : Byte) : Option (Core Turbo Lanes) := (Turbo.new d).map (turbo f12 136)

/-! #### cSHAKE -/

/-- Length of the run of zero bytes at the front (`take_while(|&&a| a == 0).count()`). -/
def zeroRun : Bytes → Nat
  | [] => 0
  | b :: l => if b = 0 then 1 + zeroRun l else 0

/-- `left_encode`, lib.rs:158-163; `b` is the caller's 9-byte scratch array (its old content must not matter).
Returns the encoded slice and the array afterwards. -/
def leftEncode (val : W64) (b : Bytes) : Bytes × Bytes :=
  let b := b.take 1 ++ beBytes 8 val.toNat
  let i := zeroRun ((b.drop 1).take 7)
  let b := b.set i (BitVec.ofNat 8 (8 - i))
  (b.drop i, b)

/-- `struct $name { state, initial_state, padding }`, macros.rs:460-465 (crate feature `reset`). -/
@[ext] structure CShake where
  state : Lanes
  initialState : Lanes
  padding : Byte
deriving DecidableEq

/-- `new_with_function_name`, macros.rs:475-527. -/
def CShake.new (f : Lanes → Lanes) (rate : Nat) (name cust : Bytes) : CShake :=
  let state := zero
  if name.isEmpty ∧ cust.isEmpty then ⟨state, state, 0x1f⟩
  else
    let feed (a : BlockBuffer × Lanes) (d : Bytes) := a.1.digestBlocks .eager rate d (updateBlocks f) a.2
    let b : Bytes := List.replicate 9 0
    let a := (BlockBuffer.empty rate, state)
    let e := leftEncode (BitVec.ofNat 64 rate) b
    let a := feed a e.1
    let e := leftEncode (BitVec.ofNat 64 (name.length * 8)) e.2
    let a := feed a e.1
    let a := feed a name
    let e := leftEncode (BitVec.ofNat 64 (cust.length * 8)) e.2
    let a := feed a e.1
    let a := feed a cust
    let state := absorbBlock f a.2 (a.1.padWithZeros rate).1
    ⟨state, state, 0x04⟩

/-- `impl_cshake!`, macros.rs:450-648. -/
def cshake (f : Lanes → Lanes) (rate : Nat) (name cust : Bytes) : Core CShake Lanes where
  kind := .eager
  bs := rate
  init := CShake.new f rate name cust
  updateBlocks := fun s b => { s with state := updateBlocks f s.state b }
  finalize := fun s buffer => absorbBlock f s.state (lastBlock rate buffer s.padding)
  reset := fun s => { s with state := s.initialState }
  serialize := fun _ => []
  deserialize := fun _ => none
  serLen := 0

/-- lib.rs:136-145 -/
def cshake128 := cshake f24 168
/-- lib.rs:146-155 -/
def cshake256 := cshake f24 136

end Hashes.Sha3
