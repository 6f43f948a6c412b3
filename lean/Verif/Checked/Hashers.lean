import Verif.Checked.Run
import Verif.Checked.Whirlpool
import Verif.Checked.Groestl
import Verif.Checked.Kupyna
import Verif.Checked.Tiger
import Verif.Checked.Sm3
import Verif.Checked.Md2
import Verif.Checked.Gost94
import Verif.Checked.Streebog
import Verif.Checked.Shabal
import Verif.Checked.Belt
import Verif.Checked.Blake2
import Verif.Checked.Skein
import Verif.Checked.Keccak
import Verif.Checked.Ascon
import Verif.Checked.Sha1Checked
import Verif.Checked.K12
import Verif.Model.Md4
import Verif.Model.Md5
import Verif.Model.Ripemd
import Verif.Model.Sha1
import Verif.Model.Sha256
import Verif.Model.Sha512
import Verif.Model.Jh
import Verif.Model.Fsb
/-
The hashers of /repo as checked cores: constructor, `update_blocks` and finalization with every check a debug build makes.
Counters are those of Model/Counters.lean.  The compression functions of MD4, MD5, RIPEMD, SHA-1, SHA-2 and JH index only with
literals (or through pointers, see Checked/SoftPtr.lean) and use wrapping arithmetic only, so they have no checked version.
-/
namespace Hashes

/-- `for (chunk, v) in out.chunks_exact_mut(w / 8).zip(words.iter()) { chunk.copy_from_slice(&v.to_be_bytes()) }` on a zeroed
output of `n` bytes -/
def Rs.outBE {w : Nat} (n : Nat) (words : List (BitVec w)) : Option Bytes :=
  store (List.replicate n (0 : Byte)) words (w / 8) fun v => beBytes (w / 8) v.toNat
/-- The same with `to_le_bytes`. -/
def Rs.outLE {w : Nat} (n : Nat) (words : List (BitVec w)) : Option Bytes :=
  store (List.replicate n (0 : Byte)) words (w / 8) fun v => leBytes (w / 8) v.toNat

open Rs

namespace Md4
/-- md4/src/lib.rs:66-90 -/
def md4C : CoreC (V4 W32 × W64) Bytes :=
  countedC Count.md4 (some S0) (fun s blks => some (blks.foldl compress s)) fun s v buf => do
    let st ← digestPadC 64 buf 0x80 (leBytes 8 (BitVec.ofNat 64 v).toNat) (fun s b => some (compress s b)) s
    outLE 16 st.toList
end Md4

namespace Md5
/-- md5/src/lib.rs:59-82 -/
def md5C : CoreC (V4 W32 × W64) Bytes :=
  countedC Count.md5 (some stateInit) (fun s blks => some (compress s blks)) fun s v buf => do
    let st ← digestPadC 64 buf 0x80 (leBytes 8 (BitVec.ofNat 64 v).toNat) (fun s b => some (compress s [b])) s
    outLE 16 st.toList
end Md5

namespace Ripemd
/-- ripemd/src/lib.rs:67-91 -/
def ripemdC {α : Type} (M : Mod α) : CoreC (α × W64) Bytes :=
  countedC Count.ripemd (some M.H0) (fun s blks => some (blks.foldl M.compress s)) fun s v buf => do
    let st ← digestPadC 64 buf 0x80 (leBytes 8 (BitVec.ofNat 64 v).toNat) (fun s b => some (M.compress s b)) s
    outLE (4 * M.n) (M.toList st)
end Ripemd

namespace Sha1
/-- sha1/src/lib.rs:64-86 -/
def sha1C : CoreC (V5 W32 × W64) Bytes :=
  countedC Count.sha1 (some H0) (fun s blks => some (compressSoft s blks)) fun s v buf => do
    let st ← digestPadC 64 buf 0x80 (beBytes 8 (BitVec.ofNat 64 v).toNat) (fun s b => some (compressSoft s [b])) s
    outBE 20 st.toList
end Sha1

namespace Sha256
/-- sha2/src/core_api.rs:38-75 -/
def sha256C (N : Nat) : CoreC (V8 W32 × W64) Bytes :=
  countedC Count.sha256 ((new N).map State.state) (fun s blks => some (compressSoft s blks)) fun s v buf => do
    let st ← digestPadC 64 buf 0x80 (beBytes 8 (BitVec.ofNat 64 v).toNat) (fun s b => some (compressSoft s [b])) s
    truncateC .left N (← outBE 32 st.toList)
end Sha256

namespace Sha512
/-- sha2/src/core_api.rs:154-193 -/
def sha512C (N : Nat) : CoreC (V8 W64 × W128) Bytes :=
  countedC Count.sha512 ((new N).map State.state) (fun s blks => some (compressSoft s blks)) fun s v buf => do
    let st ← digestPadC 128 buf 0x80 (beBytes 16 (BitVec.ofNat 128 v).toNat) (fun s b => some (compressSoft s [b])) s
    truncateC .left N (← outBE 64 st.toList)
end Sha512

namespace Sm3
/-- sm3/src/lib.rs:57-77 -/
def sm3C : CoreC (List W32 × W64) Bytes :=
  countedC Count.sm3 (some H0.toList) (fun s blks => blks.foldlM compressC s) fun s v buf => do
    let st ← digestPadC 64 buf 0x80 (beBytes 8 (BitVec.ofNat 64 v).toNat) compressC s
    outBE 32 st
end Sm3

namespace Tiger
/-- tiger/src/lib.rs:65-104 -/
def tigerC (ver2 : Bool) : CoreC (List W64 × W64) Bytes :=
  countedC Count.tiger (some S0.toList) (fun s blks => blks.foldlM (compressC TABLES) s) fun s v buf => do
    let st ← if ver2 then digestPadC 64 buf 0x80 (leBytes 8 (BitVec.ofNat 64 v).toNat) (compressC TABLES) s
      else digestPadC 64 buf 1 (leBytes 8 (BitVec.ofNat 64 v).toNat) (compressC TABLES) s
    outLE 24 st
end Tiger

namespace Groestl
/-- groestl/src/lib.rs:62-106 and :193-237; the bookkeeping yields the number of padded blocks. -/
def groestlC (g : Cfg) (N : Nat) : CoreC (List W64 × W64) Bytes :=
  countedC (Count.groestl (8 * g.cols)) ((new g N).map fun s => s.state.toList) (fun s blks => blks.foldlM (compressC g) s) fun s v buf => do
    let st ← digestPadC (8 * g.cols) buf 0x80 (beBytes 8 (BitVec.ofNat 64 v).toNat) (compressC g) s
    let res ← pFinalC g st
    let tail ← slice res (g.cols / 2) res.length
    truncateC .right N (← outBE (4 * g.cols) tail)
end Groestl

namespace Kupyna
/-- kupyna/src/short.rs:37-96, long.rs:37-98 -/
def kupynaC (g : Cfg) (N : Nat) : CoreC (List W64 × W64) Bytes :=
  countedC (Count.kupyna (8 * g.cols)) ((new g N).map fun s => s.state.toList) (fun s blks => blks.foldlM (compressC g) s) fun s v buf => do
    let suffix ← slice (leBytes 16 (BitVec.ofNat 128 v).toNat) 0 12
    let st ← digestPadC (8 * g.cols) buf 0x80 suffix (compressC g) s
    truncateC .right N (← outputC g st (List.replicate (4 * g.cols) 0))
end Kupyna

namespace Jh
/-- The two ways of padding, jh/src/lib.rs:99-104. -/
def padC (buf : BlockBuffer) (len : Bytes) (s : V8 W128) : Option (V8 W128) :=
  if buf.pos = 0 then digestPadC 64 buf 0x80 len (fun s b => some (f8 s b)) s
  else do
    let s ← digestPadC 64 buf 0x80 [] (fun s b => some (f8 s b)) s
    digestPadC 64 (buf.padWithZeros 64).2 0 len (fun s b => some (f8 s b)) s
/-- jh/src/lib.rs:64-107 -/
def jhC (N : Nat) : CoreC (V8 W128 × W64) Bytes :=
  countedC Count.jh ((new N).map State.state) (fun s blks => some (blks.foldl f8 s)) fun s v buf => do
    let st ← padC buf (beBytes 8 (BitVec.ofNat 64 v).toNat) s
    let tail ← slice (bytesOfWordsLE st.toList) 64 (bytesOfWordsLE st.toList).length
    truncateC .right N (← copy (List.replicate 64 (0 : Byte)) 0 64 tail)
end Jh

namespace Whirlpool
/-- whirlpool/src/lib.rs:60-90; state words and 256-bit length. -/
def whirlpoolC : CoreC (List W64 × List W64) Bytes where
  kind := .eager
  bs := 64
  init := some (List.replicate 8 0, List.replicate 4 0)
  updateBlocks := fun s blks => do
    let bits ← Count.mul 64 512 blks.length
    let len ← updateLenC s.2 (BitVec.ofNat 64 bits)
    let st ← blks.foldlM compressC s.1
    pure (st, len)
  finalize := fun s buf => do
    let bits ← Count.mul 64 8 buf.pos
    let len ← updateLenC s.2 (BitVec.ofNat 64 bits)
    let suffix ← outBE 32 len
    let st ← digestPadC 64 buf 0x80 suffix compressC s.1
    outLE 64 st
end Whirlpool

namespace Fsb
/-- fsb/src/macros.rs:32-66; `compress` of Model/Fsb.lean already has the checks. -/
def fsbC (P : Params) (PI : Bytes) : CoreC (Bytes × W64) Bytes :=
  countedC (Count.fsb P.bs) (some (List.replicate (P.r / 8) 0)) (fun s blks => blks.foldlM (compress P PI) s) fun s v buf => do
    let h ← digestPadC P.bs buf 0x80 (beBytes 8 (BitVec.ofNat 64 v).toNat) (compress P PI) s
    let res ← Whirlpool.whirlpoolC.run [h]
    copy (List.replicate P.out (0 : Byte)) 0 P.out (← slice res 0 P.out)
end Fsb

namespace Md2
/-- md2/src/lib.rs:85-118 -/
def md2C : CoreC State Bytes := plainC .eager 16 (some init) compressC finalizeC
end Md2

namespace Gost94
/-- gost94/src/gost94_core.rs:218-260; `BlockSize::USIZE * blocks.len()` is a product of `usize`. -/
def gost94C (sb : List (List Byte)) (h0 : Bytes) : CoreC StateC Bytes where
  kind := .eager
  bs := 32
  init := some ⟨h0, List.replicate 4 0, List.replicate 4 0⟩
  updateBlocks := fun s blks => do
    let len ← Count.mul 64 32 blks.length
    let n ← updateNC s.n (BitVec.ofNat 64 len)
    blks.foldlM (compressC sb) { s with n := n }
  finalize := fun s buf => finalizeC sb s buf (List.replicate 32 0)
end Gost94

namespace Streebog
/-- streebog/src/core_api.rs:105-141 -/
def streebogC (N : Nat) : CoreC (List W64 × List W64 × List W64) Bytes :=
  plainC .eager 64 ((new N).map fun s => (s.h.toList, s.n.toList, s.sigma.toList)) (fun t b => compressC t.1 t.2.1 t.2.2 b 64)
    fun t buf => do truncateC .right N (← finalizeC t.1 t.2.1 t.2.2 buf (List.replicate 64 0))
end Streebog

namespace Shabal
/-- shabal/src/core_api.rs:172-233 -/
def shabalC (N : Nat) : CoreC StateC Bytes :=
  plainC .eager 64 ((new N).map fun s => ⟨s.a.toList, s.b.toList, s.c.toList, s.w⟩) compressC
    fun t buf => do truncateC .right N (← finalizeC t buf (List.replicate 64 0))
end Shabal

namespace Belt
/-- belt-hash/src/lib.rs:80-116 -/
def beltC (E : CipherC) : CoreC StateC Bytes where
  kind := .eager
  bs := 32
  init := some ⟨0, List.replicate 4 0, H0.toList⟩
  updateBlocks := fun s blks => do
    let r ← Count.wbump 128 s.r blks.length
    blks.foldlM (compressBlockC E) { s with r := r }
  finalize := fun s buf => finalizeC E s buf (List.replicate 32 0)
end Belt

namespace Blake2
/-- blake2/src/macros.rs:192-228 with the core built by the constructor `i`. -/
def blake2C {w : Nat} (c : Cfg w) (i : Option (State w)) (N : Nat) : CoreC (State w) Bytes :=
  plainC .lazy c.blockSize i (updateBlockC c) fun s buf => do truncateC .left N (← finalizeC c s buf (List.replicate c.bytes 0))
/-- `VariableOutputCore::new`, macros.rs:209-215: the error becomes a panic in `Default`. -/
def newC {w : Nat} (c : Cfg w) (N : Nat) : Option (State w) := do
  check (N ≤ c.bytes)
  newWithParamsC c [] [] 0 N
end Blake2

namespace Skein
/-- skein/src/lib.rs:88-154 -/
def skeinC (E : CipherC) (n N : Nat) : CoreC StateC Bytes :=
  plainC .lazy (8 * n) (initC E n N) (fun s b => processBlockC E n s b b.length) fun s buf => finalizeC E n s buf (List.replicate N 0)
end Skein

namespace Sha3
/-- sha3/src/macros.rs:33-64 -/
def fixedC (f : Lanes → Lanes) (N rate : Nat) (pad : Byte) : CoreC Lanes Bytes :=
  plainC .eager rate (some zero) (absorbBlockC f) fun s buf => finalizeC f rate pad s buf (List.replicate N 0)
/-- sha3/src/macros.rs:170-204; the result is the reader's state. -/
def shakeC (f : Lanes → Lanes) (rate : Nat) (pad : Byte) : CoreC Lanes Lanes :=
  plainC .eager rate (some zero) (absorbBlockC f) fun s buf => finalizeXofC f rate pad s buf
/-- sha3/src/macros.rs:475-566: cSHAKE with function name and customization. -/
def cshakeC (f : Lanes → Lanes) (rate : Nat) (name cust : Bytes) : CoreC CShake Lanes where
  kind := .eager
  bs := rate
  init := CShake.newC f rate name cust
  updateBlocks := fun s blks => do
    let st ← blks.foldlM (absorbBlockC f) s.state
    pure { s with state := st }
  finalize := fun s buf => finalizeXofC f rate s.padding s.state buf
end Sha3

namespace Ascon
/-- ascon-hash/src/lib.rs:150-165 -/
def hash256C (P : State → State) : CoreC State Bytes :=
  plainC .eager 8 (some ivHash) (absorbBlockC P) fun s buf => finalizeC P s buf (List.replicate 32 0)
/-- ascon-hash/src/lib.rs:195-230; the result is the reader's state. -/
def xof128C (P : State → State) : CoreC State State := plainC .eager 8 (some ivXof) (absorbBlockC P) (finalizeXofC P)
end Ascon

namespace Sha1Checked
/-- The output loop of `finalize_inner`, lib.rs:121-123, and the result, lib.rs:97-105. -/
def resultC (h : V5 W32) (ctx : Option Detection) : Option Result := do
  let out ← outBE 20 h.toList
  match ctx with
  | some ctx => pure (if ctx.foundCollision then (if ctx.safeHash then .mitigated out else .collision out) else .ok out)
  | none => pure (.ok out)

/-- sha1-checked/src/lib.rs:93-124, :175-199 -/
def sha1CheckedC (x : Builder) : CoreC State Result where
  kind := .eager
  bs := 64
  init := some x.build
  updateBlocks := fun s blks => do
    let n ← Count.bump 64 s.blockLen blks.length
    match s.detection with
    | some ctx =>
      let r ← compressC (s.h, ctx) blks
      pure ⟨r.1, n, some r.2⟩
    | none => pure ⟨Sha1.compressSoft s.h blks, n, none⟩
  finalize := fun s buf =>
    match s.detection with
    | some ctx => do
      let total ← Count.mul 64 64 s.blockLen.toNat
      let r ← finalizeC (s.h, ctx) (BitVec.ofNat 64 total) buf.content
      resultC r.1 (some r.2)
    | none => do
      let bits ← Count.bitLen 64 64 s.blockLen.toNat buf.pos
      let h ← digestPadC 64 buf 0x80 (beBytes 8 (BitVec.ofNat 64 bits).toNat) (fun st b => some (Sha1.compressSoft st [b])) s.h
      resultC h none
end Sha1Checked

namespace K12
/-- k12/src/lib.rs:47-56, 95-152 -/
def k12C (cust : Bytes) : CoreC State (Reader Sha3.Lanes) where
  kind := .eager
  bs := 128
  init := newC cust
  updateBlocks := updateBlocksC
  finalize := finalizeC
end K12

end Hashes
