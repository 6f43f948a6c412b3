import Verif.Model.CoreWrapper
/-
Model of `digest::core_api::XofReaderCoreWrapper` over `block_buffer::ReadBuffer` (external crates, trusted base):
`ReadBuffer::read` serves cached bytes first, then whole blocks, then caches the rest of one more block.
Used by /repo/sha3 (SHAKE, cSHAKE, TurboSHAKE readers), /repo/k12, /repo/ascon-hash.
-/
namespace Hashes

/-- What a crate supplies as `XofReaderCore` (e.g. /repo/sha3/src/macros.rs:254-262). -/
structure XofCore (ρ : Type) where
  bs : Nat
  readBlock : ρ → Bytes × ρ

/-- `XofReaderCoreWrapper { core, buffer }`; the read buffer is a block and a position (`bs` = nothing cached). -/
structure Reader (ρ : Type) where
  core : ρ
  buf : Bytes
  pos : Nat

namespace XofCore
variable {ρ : Type} (x : XofCore ρ)

/-- `XofReaderCoreWrapper::from_core`. -/
def reader (r : ρ) : Reader ρ := ⟨r, List.replicate x.bs 0, x.bs⟩

/-- Read `k` whole blocks directly into the output. -/
def readBlocks : Nat → ρ → Bytes × ρ
  | 0, r => ([], r)
  | k + 1, r =>
    let b := x.readBlock r
    let t := readBlocks k b.2
    (b.1 ++ t.1, t.2)

/-- `XofReader::read(buf)` with `buf.len() = n`. -/
def read (rd : Reader ρ) (n : Nat) : Bytes × Reader ρ :=
  let h := min (x.bs - rd.pos) n
  let head := (rd.buf.drop rd.pos).take h
  let rd := { rd with pos := rd.pos + h }
  let rest := n - h
  let blks := x.readBlocks (rest / x.bs) rd.core
  let tail := rest % x.bs
  if tail = 0 then (head ++ blks.1, { rd with core := blks.2 })
  else
    let b := x.readBlock blks.2
    (head ++ blks.1 ++ b.1.take tail, ⟨b.2, b.1, tail⟩)

/-- A sequence of `read` calls; concatenated output and final reader. -/
def reads (rd : Reader ρ) : List Nat → Bytes × Reader ρ
  | [] => ([], rd)
  | n :: ns =>
    let a := x.read rd n
    let b := reads a.2 ns
    (a.1 ++ b.1, b.2)

end XofCore
end Hashes
