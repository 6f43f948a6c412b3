import Verif.Base.Bytes
/-
Model of `block_buffer::BlockBuffer` (external crate block-buffer 0.11.0-rc.4; /repo/Cargo.lock
lines naming `block-buffer`).  The crate is not part of /repo; its published algorithm is transcribed
function by function and is part of the trusted base (DESIGN.md §3).
The buffer keeps a *data array* (whose bytes past `pos` may be stale) and a position.
Every hasher in /repo owns one: `Buffer<Self>` in e.g. /repo/sha2/src/core_api.rs:66,
/repo/md5/src/lib.rs, /repo/blake2/src/macros.rs:218.
-/
namespace Hashes

/-- `block_buffer::{Eager, Lazy}`; selected by `BufferKindUser::BufferKind`
(e.g. /repo/sha2/src/core_api.rs:36 `Eager`, /repo/blake2/src/macros.rs:188 `Lazy`). -/
inductive BufKind
  | eager
  | lazy
deriving DecidableEq, Repr

/-- `BlockBuffer<BS, K>`: data array plus cursor. -/
structure BlockBuffer where
  data : Bytes
  pos : Nat
deriving DecidableEq, Repr

/-- Copy `src` into `dst` starting at `off` (`dst[off..][..src.len()].copy_from_slice(src)`). -/
def overwrite (dst : Bytes) (off : Nat) (src : Bytes) : Bytes :=
  dst.take off ++ src ++ dst.drop (off + src.length)

namespace BlockBuffer

/-- `BlockBuffer::default()`: zero cursor (array content irrelevant, zeroed here). -/
def empty (bs : Nat) : BlockBuffer := ⟨List.replicate bs 0, 0⟩

/-- `BlockBuffer::get_data`: the live bytes `data[..pos]`. -/
def content (b : BlockBuffer) : Bytes := b.data.take b.pos

/-- `BlockBuffer::reset`: cursor to zero, array left as is. -/
def reset (b : BlockBuffer) : BlockBuffer := { b with pos := 0 }

/-- `BufferKind::invariant(n, rem)`: may `n` more bytes be stored without compressing. -/
def fits (k : BufKind) (n rem : Nat) : Bool :=
  match k with
  | .eager => decide (n < rem)
  | .lazy => decide (n ≤ rem)

/-- `BufferKind::split_blocks`: number of blocks handed to `compress` out of `len` bytes. -/
def splitCount (k : BufKind) (bs len : Nat) : Nat :=
  match k with
  | .eager => len / bs
  | .lazy => if len = 0 then 0 else if len % bs = 0 then len / bs - 1 else len / bs

/-- `BlockBuffer::digest_blocks(input, compress)`. -/
def digestBlocks {σ : Type} (k : BufKind) (bs : Nat) (b : BlockBuffer) (input : Bytes)
    (compress : σ → List Bytes → σ) (s : σ) : BlockBuffer × σ :=
  let pos := b.pos
  let rem := bs - pos
  let n := input.length
  if fits k n rem then
    (⟨overwrite b.data pos input, pos + n⟩, s)
  else
    let (b, input, s) :=
      if pos ≠ 0 then
        let left := input.take rem
        let right := input.drop rem
        let data := overwrite b.data pos left
        ((⟨data, pos⟩ : BlockBuffer), right, compress s [data])
      else (b, input, s)
    let cnt := splitCount k bs input.length
    let blks := blocks bs cnt input
    let leftover := input.drop (cnt * bs)
    let s := if blks.isEmpty then s else compress s blks
    (⟨overwrite b.data 0 leftover, leftover.length⟩, s)

/-- `BlockBuffer::pad_with_zeros`: the live bytes followed by zeros; the cursor becomes 0. -/
def padWithZeros (bs : Nat) (b : BlockBuffer) : Bytes × BlockBuffer :=
  let data := b.data.take b.pos ++ List.replicate (bs - b.pos) 0
  (data, ⟨data, 0⟩)

/-- `BlockBuffer::<_, Eager>::digest_pad(delim, suffix, compress)`.
The Rust function panics when `suffix` is longer than a block; callers in /repo pass at most 32 bytes
with blocks of at least 64 bytes (or an empty suffix), see e.g. /repo/whirlpool/src/lib.rs finalize. -/
def digestPad {σ : Type} (bs : Nat) (b : BlockBuffer) (delim : Byte) (suffix : Bytes)
    (compress : σ → Bytes → σ) (s : σ) : σ :=
  let pos := b.pos
  let buf := (b.padWithZeros bs).1
  let buf := overwrite buf pos [delim]
  let n := bs - suffix.length
  if bs - pos - 1 < suffix.length then
    let s := compress s buf
    let buf := List.replicate bs (0 : Byte)
    let buf := overwrite buf n suffix
    compress s buf
  else
    let buf := overwrite buf n suffix
    compress s buf

/-- `len64_padding_be(data_len, compress)`: delimiter 0x80, 8-byte big-endian length. -/
def len64PaddingBE {σ : Type} (bs : Nat) (b : BlockBuffer) (len : W64)
    (compress : σ → Bytes → σ) (s : σ) : σ :=
  digestPad bs b 0x80 (beBytes 8 len.toNat) compress s

/-- `len64_padding_le(data_len, compress)`: delimiter 0x80, 8-byte little-endian length. -/
def len64PaddingLE {σ : Type} (bs : Nat) (b : BlockBuffer) (len : W64)
    (compress : σ → Bytes → σ) (s : σ) : σ :=
  digestPad bs b 0x80 (leBytes 8 len.toNat) compress s

/-- `len128_padding_be(data_len, compress)`: delimiter 0x80, 16-byte big-endian length. -/
def len128PaddingBE {σ : Type} (bs : Nat) (b : BlockBuffer) (len : W128)
    (compress : σ → Bytes → σ) (s : σ) : σ :=
  digestPad bs b 0x80 (beBytes 16 len.toNat) compress s

/-- `BlockBuffer::serialize`: cursor byte, live data, zeros up to block size (`bs + 1` bytes).
The layout is confirmed by the serialization vectors in /repo, e.g. /repo/sha2/tests/mod.rs:10-22. -/
def serialize (bs : Nat) (b : BlockBuffer) : Bytes :=
  BitVec.ofNat 8 b.pos :: (b.content ++ List.replicate (bs - b.pos) 0)

/-- `BlockBuffer::deserialize`: rejects an out-of-range cursor and non-zero bytes past it. -/
def deserialize (k : BufKind) (bs : Nat) (raw : Bytes) : Option BlockBuffer :=
  if raw.length ≠ bs + 1 then none else
  match raw with
  | [] => none
  | p :: data =>
    let pos := p.toNat
    if ¬ fits k pos bs then none
    else if (data.drop pos).all (· == 0) then some ⟨data, pos⟩ else none

end BlockBuffer
end Hashes
