import Verif.Checked.Keccak
import Verif.Checked.Ascon
import Verif.Model.Xof
/-
XOF readers with Rust's run-time checks.  `data` is the caller's buffer before the call; the first component of a result is its
content afterwards.
-/
namespace Hashes.Rs

/-- `XofReaderCore` with panics; the type of `read_block` makes its result `bs` bytes long. -/
structure XofC (ρ : Type) where
  bs : Nat
  readBlock : ρ → Option (Bytes × ρ)

namespace XofC
variable {ρ : Type} (x : XofC ρ)

/-- `XofReaderCoreWrapper::from_core` (external crate digest). -/
def reader (r : ρ) : Reader ρ := ⟨r, List.replicate x.bs 0, x.bs⟩

/-- `for block in blocks { *block = core.read_block() }` -/
def blocksC (r : ρ) : List Bytes → Option (Bytes × ρ)
  | [] => some ([], r)
  | b :: bs => do
    let (y, r) ← x.readBlock r
    let b ← copy b 0 b.length y
    let (t, r) ← blocksC r bs
    pure (b ++ t, r)

/-- The part of `ReadBuffer::read` after the cached bytes (external crate block-buffer). -/
def restC (rd : Reader ρ) (data : Bytes) : Option (Bytes × Reader ρ) := do
  let k := data.length / x.bs * x.bs
  let (out, r) ← x.blocksC rd.core (chunks x.bs data)
  let leftover ← slice data k data.length
  let n := leftover.length
  if n ≠ 0 then
    let (block, r) ← x.readBlock r
    let tail ← copy leftover 0 n (← slice block 0 n)
    pure (out ++ tail, ⟨r, block, n⟩)
  else pure (out, { rd with core := r, pos := x.bs })

/-- `XofReader::read(data)`: `ReadBuffer::read` of the external crate block-buffer with `*block = core.read_block()` for the
closure. -/
def readC (rd : Reader ρ) (data : Bytes) : Option (Bytes × Reader ρ) := do
  let r ← usub x.bs rd.pos
  let n := data.length
  if r ≠ 0 then
    let cached ← slice rd.buf rd.pos rd.buf.length
    if n < r then
      let out ← copy data 0 n (← slice cached 0 n)
      pure (out, { rd with pos := rd.pos + n })
    else
      let left ← slice data 0 r
      let right ← slice data r data.length
      let left ← copy left 0 r cached
      let (out, rd) ← x.restC rd right
      pure (left ++ out, rd)
  else x.restC rd data

/-- One `read` per element of `l`. -/
def readsC (rd : Reader ρ) : List Bytes → Option (Bytes × Reader ρ)
  | [] => some ([], rd)
  | d :: l => do
    let (a, rd) ← x.readC rd d
    let (b, rd) ← readsC rd l
    pure (a ++ b, rd)

/-- The bytes that a fresh reader writes to the buffers `l`. -/
def output (r : ρ) (l : List Bytes) : Option Bytes := (x.readsC (x.reader r) l).map (·.1)

end XofC
end Hashes.Rs

namespace Hashes
open Rs

/-- sha3/src/macros.rs:254-262, :415-423, :619-627: the readers of SHAKE, TurboSHAKE and cSHAKE. -/
def Sha3.xofC (f : Sha3.Lanes → Sha3.Lanes) (rate : Nat) : XofC Sha3.Lanes := ⟨rate, Sha3.readBlockC f rate⟩

/-- ascon-hash/src/lib.rs:109-113, :213-217. -/
def Ascon.readerC (P : Ascon.State → Ascon.State) : XofC Ascon.State := ⟨8, fun s => some (leBytes 8 s.x0.toNat, P s)⟩

/-- `KangarooTwelveReaderCore::read_block`, k12/src/lib.rs:217-224. -/
def K12.xofC : XofC (Reader Sha3.Lanes) := ⟨168, fun r => (Sha3.xofC Sha3.f12 168).readC r (List.replicate 168 0)⟩

end Hashes
