import Verif.Checked.Hashers
import Verif.Leak.Md2
import Verif.Leak.Tiger
import Verif.Leak.Whirlpool
import Verif.Leak.Streebog
import Verif.Leak.Groestl
import Verif.Leak.Kupyna
import Verif.Leak.Gost94
import Verif.Leak.Fsb
import Verif.Leak.Sm3
import Verif.Leak.SoftPtr
import Verif.Leak.Shabal
import Verif.Leak.Blake2
import Verif.Leak.Keccak
import Verif.Leak.Skein
import Verif.Leak.Ascon
import Verif.Leak.Belt
/-
Whole hashers with what an observer of the memory accesses and branches sees: the buffering of the external crates digest and
block-buffer (Model/BlockBuffer.lean, Checked/Run.lean) and the hashers of Checked/Hashers.lean, with the operations of Base/Leak.lean in
place of those of Base/Rust.lean.  Comparisons of lengths and positions are branches, copies show the bounds of the slices, and
whether a check of a counter passes is seen.
-/
namespace Hashes.Leak
variable {σ τ ω : Type}

/-- The first part of `digest_blocks`: if the buffer is not empty, it is filled up and compressed. -/
def fillL (bs : Nat) (b : BlockBuffer) (input : Bytes) (compress : σ → List Bytes → Leak σ) (s : σ) : Leak (Bytes × Bytes × σ) :=
  branch (b.pos ≠ 0) (do
    let left ← slice input 0 (bs - b.pos)
    let right ← slice input (bs - b.pos) input.length
    let data ← copy b.data b.pos bs left
    let s ← compress s [data]
    pure (data, right, s))
  (pure (b.data, input, s))

/-- The second part of `digest_blocks`: `split_blocks`, the whole blocks in one call, and the leftover to the buffer. -/
def restL (k : BufKind) (bs : Nat) (data input : Bytes) (compress : σ → List Bytes → Leak σ) (s : σ) : Leak (BlockBuffer × σ) := do
  let cnt := BlockBuffer.splitCount k bs input.length
  let body ← slice input 0 (cnt * bs)
  let leftover ← slice input (cnt * bs) input.length
  let s ← branch (cnt = 0) (pure s) (compress s (blocks bs cnt body))
  let data ← copy data 0 leftover.length leftover
  pure (⟨data, leftover.length⟩, s)

/-- `BlockBuffer::digest_blocks(input, compress)` (external crate block-buffer, see Model/BlockBuffer.lean). -/
def digestBlocksL (k : BufKind) (bs : Nat) (b : BlockBuffer) (input : Bytes) (compress : σ → List Bytes → Leak σ) (s : σ) :
    Leak (BlockBuffer × σ) :=
  branch (BlockBuffer.fits k input.length (bs - b.pos) = true) (do
    let data ← copy b.data b.pos (b.pos + input.length) input
    pure (⟨data, b.pos + input.length⟩, s))
  (do
    let r ← fillL bs b input compress s
    restL k bs r.1 r.2.1 compress r.2.2)

/-- `BlockBuffer::<_, Eager>::digest_pad(delim, suffix, compress)` (external crate block-buffer, see Checked/Run.lean); the bytes from the
position on are zeroed first. -/
def digestPadL (bs : Nat) (b : BlockBuffer) (delim : Byte) (suffix : Bytes) (compress : τ → Bytes → Leak τ) (s : τ) : Leak τ := do
  check (suffix.length ≤ bs)
  let buf ← emit (.range b.pos bs) (some (b.padWithZeros bs).1)
  let buf ← upd buf b.pos delim
  let n ← usub bs suffix.length
  let rem ← usub (← usub bs b.pos) 1
  branch (rem < suffix.length) (do
    let s ← compress s buf
    let buf ← copy (List.replicate bs (0 : Byte)) n bs suffix
    compress s buf) (do
    let buf ← copy buf n bs suffix
    compress s buf)

/-- What an algorithm crate supplies, with panics and observations. -/
structure CoreL (τ ω : Type) where
  kind : BufKind
  bs : Nat
  init : Leak τ
  updateBlocks : τ → List Bytes → Leak τ
  finalize : τ → BlockBuffer → Leak ω

/-- `Update::update for CoreWrapper`. -/
def CoreL.updateL (c : CoreL τ ω) (x : BlockBuffer × τ) (input : Bytes) : Leak (BlockBuffer × τ) :=
  digestBlocksL c.kind c.bs x.1 input c.updateBlocks x.2

/-- `new`, one `update` per element of `l`, `finalize`. -/
def CoreL.runL (c : CoreL τ ω) (l : List Bytes) : Leak ω := do
  let s ← c.init
  let x ← l.foldlM c.updateL (BlockBuffer.empty c.bs, s)
  c.finalize x.2 x.1

/-- `countedC` of Checked/Run.lean. -/
def countedL {w : Nat} (k : Count.Book w) (h0 : Leak τ) (comp : τ → List Bytes → Leak τ) (out : τ → Nat → BlockBuffer → Leak ω) :
    CoreL (τ × BitVec w) ω where
  kind := k.kind
  bs := k.bs
  init := do
    let h ← h0
    pure (h, 0)
  updateBlocks := fun s blks => do
    let n ← seen (k.upd s.2 blks.length)
    let h ← comp s.1 blks
    pure (h, n)
  finalize := fun s buf => do
    let v ← seen (k.fin s.2.toNat buf.pos)
    out s.1 v buf

/-- `plainC` of Checked/Run.lean. -/
def plainL (kind : BufKind) (bs : Nat) (init : Leak τ) (comp : τ → Bytes → Leak τ) (out : τ → BlockBuffer → Leak ω) : CoreL τ ω where
  kind := kind
  bs := bs
  init := init
  updateBlocks := fun s blks => blks.foldlM comp s
  finalize := out

/-- `truncateC` of Checked/Run.lean. -/
def truncateL (side : TruncSide) (n : Nat) (full : Bytes) : Leak Bytes := do
  let m ← usub full.length n
  let src ← match side with
    | .left => slice full 0 n
    | .right => slice full m full.length
  copy (List.replicate n (0 : Byte)) 0 n src

/-- `Rs.outBE` of Checked/Hashers.lean. -/
def outBEL {w : Nat} (n : Nat) (words : List (BitVec w)) : Leak Bytes :=
  store (List.replicate n (0 : Byte)) words (w / 8) fun v => beBytes (w / 8) v.toNat
/-- `Rs.outLE` of Checked/Hashers.lean. -/
def outLEL {w : Nat} (n : Nat) (words : List (BitVec w)) : Leak Bytes :=
  store (List.replicate n (0 : Byte)) words (w / 8) fun v => leBytes (w / 8) v.toNat

end Hashes.Leak

namespace Hashes
open Leak

/-! ### The hashers of Checked/Hashers.lean -/

/-- md4/src/lib.rs:66-90; the block function has literal indices only and shows nothing. -/
def Md4.md4L : CoreL (V4 W32 × W64) Bytes :=
  countedL Count.md4 (pure S0) (fun s blks => pure (blks.foldl compress s)) fun s v buf => do
    let st ← digestPadL 64 buf 0x80 (leBytes 8 (BitVec.ofNat 64 v).toNat) (fun s b => pure (compress s b)) s
    outLEL 16 st.toList

/-- md5/src/lib.rs:59-82; the block function has literal indices only and shows nothing. -/
def Md5.md5L : CoreL (V4 W32 × W64) Bytes :=
  countedL Count.md5 (pure stateInit) (fun s blks => pure (compress s blks)) fun s v buf => do
    let st ← digestPadL 64 buf 0x80 (leBytes 8 (BitVec.ofNat 64 v).toNat) (fun s b => pure (compress s [b])) s
    outLEL 16 st.toList

/-- ripemd/src/lib.rs:67-91; the block functions have literal indices only and show nothing. -/
def Ripemd.ripemdL {α : Type} (M : Mod α) : CoreL (α × W64) Bytes :=
  countedL Count.ripemd (pure M.H0) (fun s blks => pure (blks.foldl M.compress s)) fun s v buf => do
    let st ← digestPadL 64 buf 0x80 (leBytes 8 (BitVec.ofNat 64 v).toNat) (fun s b => pure (M.compress s b)) s
    outLEL (4 * M.n) (M.toList st)

/-- sha1/src/lib.rs:64-86 with the portable code, which has literal indices only and shows nothing. -/
def Sha1.sha1L : CoreL (V5 W32 × W64) Bytes :=
  countedL Count.sha1 (pure H0) (fun s blks => pure (compressSoft s blks)) fun s v buf => do
    let st ← digestPadL 64 buf 0x80 (beBytes 8 (BitVec.ofNat 64 v).toNat) (fun s b => pure (compressSoft s [b])) s
    outBEL 20 st.toList

/-- sha2/src/core_api.rs:38-75 with the portable code; the constants are at the address `a`.  The address of a block is not seen. -/
def Sha256.sha256L (a N : Nat) : CoreL (V8 W32 × W64) Bytes :=
  countedL Count.sha256 (seen ((new N).map State.state)) (fun s blks => compressSoftL a s (blks.map (Raw.Obj.mk 0))) fun s v buf => do
    let st ← digestPadL 64 buf 0x80 (beBytes 8 (BitVec.ofNat 64 v).toNat) (fun s b => compressSoftL a s [⟨0, b⟩]) s
    truncateL .left N (← outBEL 32 st.toList)

/-- sha2/src/core_api.rs:154-193 with the portable code. -/
def Sha512.sha512L (a N : Nat) : CoreL (V8 W64 × W128) Bytes :=
  countedL Count.sha512 (seen ((new N).map State.state)) (fun s blks => compressSoftL a s (blks.map (Raw.Obj.mk 0))) fun s v buf => do
    let st ← digestPadL 128 buf 0x80 (beBytes 16 (BitVec.ofNat 128 v).toNat) (fun s b => compressSoftL a s [⟨0, b⟩]) s
    truncateL .left N (← outBEL 64 st.toList)

/-- sm3/src/lib.rs:57-77 -/
def Sm3.sm3L : CoreL (List W32 × W64) Bytes :=
  countedL Count.sm3 (pure H0.toList) (fun s blks => blks.foldlM compressL s) fun s v buf => do
    let st ← digestPadL 64 buf 0x80 (beBytes 8 (BitVec.ofNat 64 v).toNat) compressL s
    outBEL 32 st

/-- tiger/src/lib.rs:65-104 -/
def Tiger.tigerL (ver2 : Bool) : CoreL (List W64 × W64) Bytes :=
  countedL Count.tiger (pure S0.toList) (fun s blks => blks.foldlM (compressL TABLES) s) fun s v buf => do
    let st ← digestPadL 64 buf (if ver2 then 0x80 else 1) (leBytes 8 (BitVec.ofNat 64 v).toNat) (compressL TABLES) s
    outLEL 24 st

/-- groestl/src/lib.rs:62-106 and :193-237 -/
def Groestl.groestlL (g : Cfg) (N : Nat) : CoreL (List W64 × W64) Bytes :=
  countedL (Count.groestl (8 * g.cols)) (seen ((new g N).map fun s => s.state.toList)) (fun s blks => blks.foldlM (compressL g) s) fun s v buf => do
    let st ← digestPadL (8 * g.cols) buf 0x80 (beBytes 8 (BitVec.ofNat 64 v).toNat) (compressL g) s
    let res ← pFinalL g st
    let tail ← slice res (g.cols / 2) res.length
    truncateL .right N (← outBEL (4 * g.cols) tail)

/-- kupyna/src/short.rs:37-96, long.rs:37-98 -/
def Kupyna.kupynaL (g : Cfg) (N : Nat) : CoreL (List W64 × W64) Bytes :=
  countedL (Count.kupyna (8 * g.cols)) (seen ((new g N).map fun s => s.state.toList)) (fun s blks => blks.foldlM (compressL g) s) fun s v buf => do
    let suffix ← slice (leBytes 16 (BitVec.ofNat 128 v).toNat) 0 12
    let st ← digestPadL (8 * g.cols) buf 0x80 suffix (compressL g) s
    truncateL .right N (← outputL g st (List.replicate (4 * g.cols) 0))

/-- The two ways of padding, jh/src/lib.rs:99-104; blocks are at the address `p`. -/
def Jh.padL (p : Nat) (buf : BlockBuffer) (len : Bytes) (s : V8 W128) : Leak (V8 W128) :=
  branch (buf.pos = 0) (digestPadL 64 buf 0x80 len (fun s b => f8L s ⟨p, b⟩) s)
  (do
    let s ← digestPadL 64 buf 0x80 [] (fun s b => f8L s ⟨p, b⟩) s
    digestPadL 64 (buf.padWithZeros 64).2 0 len (fun s b => f8L s ⟨p, b⟩) s)
/-- jh/src/lib.rs:64-107; addresses are seen relative to the block (`p`). -/
def Jh.jhL (p N : Nat) : CoreL (V8 W128 × W64) Bytes :=
  countedL Count.jh (seen ((new N).map State.state)) (fun s blks => blks.foldlM (fun s b => f8L s ⟨p, b⟩) s) fun s v buf => do
    let st ← padL p buf (beBytes 8 (BitVec.ofNat 64 v).toNat) s
    let tail ← slice (bytesOfWordsLE st.toList) 64 (bytesOfWordsLE st.toList).length
    truncateL .right N (← copy (List.replicate 64 (0 : Byte)) 0 64 tail)

/-- whirlpool/src/lib.rs:60-90 -/
def Whirlpool.whirlpoolL : CoreL (List W64 × List W64) Bytes where
  kind := .eager
  bs := 64
  init := pure (List.replicate 8 0, List.replicate 4 0)
  updateBlocks := fun s blks => do
    let bits ← seen (Count.mul 64 512 blks.length)
    let len ← updateLenL s.2 (BitVec.ofNat 64 bits)
    let st ← blks.foldlM compressL s.1
    pure (st, len)
  finalize := fun s buf => do
    let bits ← seen (Count.mul 64 8 buf.pos)
    let len ← updateLenL s.2 (BitVec.ofNat 64 bits)
    let suffix ← outBEL 32 len
    let st ← digestPadL 64 buf 0x80 suffix compressL s.1
    outLEL 64 st

/-- fsb/src/macros.rs:32-66 -/
def Fsb.fsbL (P : Params) (PI : Bytes) : CoreL (Bytes × W64) Bytes :=
  countedL (Count.fsb P.bs) (pure (List.replicate (P.r / 8) 0)) (fun s blks => blks.foldlM (compressL P PI) s) fun s v buf => do
    let h ← digestPadL P.bs buf 0x80 (beBytes 8 (BitVec.ofNat 64 v).toNat) (compressL P PI) s
    let res ← Whirlpool.whirlpoolL.runL [h]
    Leak.copy (List.replicate P.out (0 : Byte)) 0 P.out (← Leak.slice res 0 P.out)

/-- md2/src/lib.rs:85-118 -/
def Md2.md2L : CoreL State Bytes := plainL .eager 16 (pure init) compressL finalizeL

/-- gost94/src/gost94_core.rs:218-260 -/
def Gost94.gost94L (sb : List (List Byte)) (h0 : Bytes) : CoreL StateC Bytes where
  kind := .eager
  bs := 32
  init := pure ⟨h0, List.replicate 4 0, List.replicate 4 0⟩
  updateBlocks := fun s blks => do
    let len ← seen (Count.mul 64 32 blks.length)
    let n ← updateNL s.n (BitVec.ofNat 64 len)
    blks.foldlM (compressL sb) { s with n := n }
  finalize := fun s buf => finalizeL sb s buf (List.replicate 32 0)

/-- streebog/src/core_api.rs:105-141 -/
def Streebog.streebogL (N : Nat) : CoreL (List W64 × List W64 × List W64) Bytes :=
  plainL .eager 64 (seen ((new N).map fun s => (s.h.toList, s.n.toList, s.sigma.toList))) (fun t b => compressL t.1 t.2.1 t.2.2 b 64)
    fun t buf => do truncateL .right N (← finalizeL t.1 t.2.1 t.2.2 buf (List.replicate 64 0))

/-- shabal/src/core_api.rs:172-233 -/
def Shabal.shabalL (N : Nat) : CoreL StateC Bytes :=
  plainL .eager 64 (seen ((new N).map fun s => ⟨s.a.toList, s.b.toList, s.c.toList, s.w⟩)) compressL
    fun t buf => do truncateL .right N (← finalizeL t buf (List.replicate 64 0))

/-- belt-hash/src/lib.rs:80-116 -/
def Belt.beltL (E : CipherC) : CoreL StateC Bytes where
  kind := .eager
  bs := 32
  init := pure ⟨0, List.replicate 4 0, H0.toList⟩
  updateBlocks := fun s blks => do
    let r ← seen (Count.wbump 128 s.r blks.length)
    blks.foldlM (compressBlockL E) { s with r := r }
  finalize := fun s buf => finalizeL E s buf (List.replicate 32 0)

/-- blake2/src/macros.rs:192-228 with the core built by the constructor `i`, of which only success is seen (the key is not read by it). -/
def Blake2.blake2L {w : Nat} (c : Cfg w) (i : Option (State w)) (N : Nat) : CoreL (State w) Bytes :=
  plainL .lazy c.blockSize (seen i) (updateBlockL c) fun s buf => do truncateL .left N (← finalizeL c s buf (List.replicate c.bytes 0))

/-- skein/src/lib.rs:88-154; the initial value depends on the sizes only. -/
def Skein.skeinL (E : CipherC) (n N : Nat) : CoreL StateC Bytes :=
  plainL .lazy (8 * n) (seen (initC E n N)) (fun s b => processBlockL E n s b b.length) fun s buf => finalizeL E n s buf (List.replicate N 0)

/-- sha3/src/macros.rs:33-64 -/
def Sha3.fixedL (f : Lanes → Lanes) (N rate : Nat) (pad : Byte) : CoreL Lanes Bytes :=
  plainL .eager rate (pure zero) (absorbBlockL f) fun s buf => finalizeL f rate pad s buf (List.replicate N 0)
/-- sha3/src/macros.rs:170-204; the result is the reader's state. -/
def Sha3.shakeL (f : Lanes → Lanes) (rate : Nat) (pad : Byte) : CoreL Lanes Lanes :=
  plainL .eager rate (pure zero) (absorbBlockL f) fun s buf => finalizeXofL f rate pad s buf

/-- ascon-hash/src/lib.rs:150-165 -/
def Ascon.hash256L (P : State → State) : CoreL State Bytes :=
  plainL .eager 8 (pure ivHash) (absorbBlockL P) fun s buf => finalizeL P s buf (List.replicate 32 0)
/-- ascon-hash/src/lib.rs:195-230; the result is the reader's state. -/
def Ascon.xof128L (P : State → State) : CoreL State State := plainL .eager 8 (pure ivXof) (absorbBlockL P) (finalizeXofL P)

end Hashes
