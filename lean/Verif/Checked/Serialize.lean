import Verif.Checked.Hashers
/-
`SerializableState` of the hashers with Rust's run-time checks: `none` is a panic.  Sizes that the compiler derives from types
(`split::<N>()`, `concat`, conversions between an array type and its `Array`) are checks here as well.  No core returns
`DeserializeStateError` itself.
-/
namespace Hashes.Rs

/-- `SerializableState` of a core that returns no error: `SerializedStateSize`, `serialize`, `deserialize`. -/
structure SaveC (τ : Type) where
  size : Nat
  ser : τ → Option Bytes
  des : Bytes → Option τ

/-- `serialized.split::<N>()` -/
def split (raw : Bytes) (n : Nat) : Option (Bytes × Bytes) := do
  pure (← slice raw 0 n, ← slice raw n raw.length)

/-- `*array.as_ref()` and `.into()`: an array of exactly `n` elements -/
def exactly (n : Nat) (a : Bytes) : Option Bytes := do
  check (a.length = n)
  pure a

/-- The body shared by most crates: words little endian from the start, the counter from `off` to the end.  sha1/src/lib.rs:137-146,
sha2/src/core_api.rs:107-116, :225-234, sm3/src/lib.rs:124-133, md4/src/lib.rs:204-213, md5/src/lib.rs:131-140,
ripemd/src/lib.rs:139-149, tiger/src/lib.rs:116-125, groestl/src/lib.rs:134-143, :265-274. -/
def serWords {w v : Nat} (size off : Nat) (words : List (BitVec w)) (ctr : BitVec v) : Option Bytes := do
  let s ← store (List.replicate size (0 : Byte)) words (w / 8) fun x => leBytes (w / 8) x.toNat
  copy s off s.length (leBytes (v / 8) ctr.toNat)

/-- The body shared by most crates: `n` words, then the counter.  sha1/src/lib.rs:148-161, sha2/src/core_api.rs:118-131, :236-249,
sm3/src/lib.rs:135-148, md4/src/lib.rs:215-228, md5/src/lib.rs:142-155, ripemd/src/lib.rs:151-165, tiger/src/lib.rs:127-140,
groestl/src/lib.rs:145-158, :276-289. -/
def desWords (w v : Nat) (off n : Nat) (raw : Bytes) : Option (List (BitVec w) × BitVec v) := do
  let (a, b) ← split raw off
  let words ← load (List.replicate n (0 : BitVec w)) a (w / 8) (fromLe w)
  let ctr ← fromLe v b
  pure (words, ctr)

/-- `for (val, chunk) in a.iter().zip(out.chunks_exact_mut(w / 8)) { chunk.copy_from_slice(&val.to_le_bytes()) }` on `n` zero bytes,
gost94/src/gost94_core.rs:302-310, whirlpool/src/lib.rs:154-167, shabal/src/core_api.rs:268-281, sha3/src/macros.rs:101-110 -/
def serArr {w : Nat} (n : Nat) (a : List (BitVec w)) : Option Bytes :=
  store (List.replicate n (0 : Byte)) a (w / 8) fun x => leBytes (w / 8) x.toNat

/-- `let mut a = [0; n]; for (val, chunk) in a.iter_mut().zip(part.chunks_exact(w / 8)) { *val = from_le_bytes(..unwrap()) }` -/
def desArr (w n : Nat) (part : Bytes) : Option (List (BitVec w)) :=
  load (List.replicate n (0 : BitVec w)) part (w / 8) (fromLe w)

/-- `SerializableState` where `deserialize` may return an error: outer `none` is a panic, inner `none` is `DeserializeStateError`. -/
structure WrapC (τ : Type) where
  size : Nat
  ser : τ → Option Bytes
  des : Bytes → Option (Option τ)

/-- A core used as it is. -/
def SaveC.plain {τ : Type} (S : SaveC τ) : WrapC τ where
  size := S.size
  ser := S.ser
  des := fun raw => do pure (some (← S.des raw))

/-- `CtVariableCoreWrapper<T, OutSize>` with `OutSize = n` (external crate digest): the core's bytes and the output size as a byte, which
is compared when loading. -/
def SaveC.ct {τ : Type} (S : SaveC τ) (n : Nat) : WrapC τ where
  size := S.size + 1
  ser := fun s => do
    let a ← exactly S.size (← S.ser s)
    pure (a ++ [BitVec.ofNat 8 n])
  des := fun raw => do
    let (a, b) ← split raw S.size
    let o ← idx b 0
    if o ≠ BitVec.ofNat 8 n then pure none else
      let s ← S.des a
      pure (some s)

/-- `CoreWrapper::serialize` (external crate digest): the core's bytes, then the buffer's. -/
def WrapC.save {τ : Type} (S : WrapC τ) (bs : Nat) (s : τ) (buf : BlockBuffer) : Option Bytes := do
  let a ← exactly S.size (← S.ser s)
  pure (a ++ buf.serialize bs)

/-- `CoreWrapper::deserialize` (external crate digest): outer `none` is a panic, inner `none` is `DeserializeStateError`. -/
def WrapC.load {τ : Type} (S : WrapC τ) (kind : BufKind) (bs : Nat) (raw : Bytes) : Option (Option (τ × BlockBuffer)) := do
  let (a, b) ← split raw S.size
  match ← S.des a with
  | none => pure none
  | some s =>
    match BlockBuffer.deserialize kind bs b with
    | none => pure none
    | some buf => pure (some (s, buf))

end Hashes.Rs

namespace Hashes
open Rs

/-- sha1/src/lib.rs:134-162 -/
def Sha1.saveC : SaveC (V5 W32 × W64) where
  size := 28
  ser := fun s => serWords 28 20 s.1.toList s.2
  des := fun raw => do
    let (h, n) ← desWords 32 64 20 5 raw
    pure (V5.ofFn fun i => h.getD i 0, n)

/-- sha2/src/core_api.rs:104-132 -/
def Sha256.saveC : SaveC (V8 W32 × W64) where
  size := 40
  ser := fun s => serWords 40 32 s.1.toList s.2
  des := fun raw => do
    let (h, n) ← desWords 32 64 32 8 raw
    pure (V8.ofFn fun i => h.getD i 0, n)

/-- sha2/src/core_api.rs:221-250 -/
def Sha512.saveC : SaveC (V8 W64 × W128) where
  size := 80
  ser := fun s => serWords 80 64 s.1.toList s.2
  des := fun raw => do
    let (h, n) ← desWords 64 128 64 8 raw
    pure (V8.ofFn fun i => h.getD i 0, n)

/-- sm3/src/lib.rs:121-149 -/
def Sm3.saveC : SaveC (List W32 × W64) where
  size := 40
  ser := fun s => serWords 40 32 s.1 s.2
  des := fun raw => desWords 32 64 32 8 raw

/-- md4/src/lib.rs:201-229 -/
def Md4.saveC : SaveC (V4 W32 × W64) where
  size := 24
  ser := fun s => serWords 24 16 s.1.toList s.2
  des := fun raw => do
    let (h, n) ← desWords 32 64 16 4 raw
    pure (V4.ofFn fun i => h.getD i 0, n)

/-- md5/src/lib.rs:128-156 -/
def Md5.saveC : SaveC (V4 W32 × W64) where
  size := 24
  ser := fun s => serWords 24 16 s.1.toList s.2
  des := fun raw => do
    let (h, n) ← desWords 32 64 16 4 raw
    pure (V4.ofFn fun i => h.getD i 0, n)

/-- ripemd/src/lib.rs:136-166 with `DigestBufByteLen = byteLen` and `DIGEST_BUF_LEN = bufLen` -/
def Ripemd.saveC {α : Type} (M : Mod α) (byteLen bufLen : Nat) : SaveC (α × W64) where
  size := byteLen + 8
  ser := fun s => serWords (byteLen + 8) byteLen (M.toList s.1) s.2
  des := fun raw => do
    let (h, n) ← desWords 32 64 byteLen bufLen raw
    pure (M.ofFn fun i => h.getD i 0, n)

/-- tiger/src/lib.rs:113-141 -/
def Tiger.saveC : SaveC (List W64 × W64) where
  size := 32
  ser := fun s => serWords 32 24 s.1 s.2
  des := fun raw => desWords 64 64 24 3 raw

/-- groestl/src/lib.rs:131-159 (`off = 64`, `size = 72`, `COLS = 8`), :262-290 (`off = 128`, `size = 136`, `COLS = 16`) -/
def Groestl.saveC (size off cols : Nat) : SaveC (List W64 × W64) where
  size := size
  ser := fun s => serWords size off s.1 s.2
  des := fun raw => desWords 64 64 off cols raw

/-- `write_u64_le`, kupyna/src/utils.rs:94-99 -/
def Kupyna.writeC (src : List W64) (dst : Bytes) : Option Bytes := do
  check (8 * src.length = dst.length)
  store dst src 8 fun v => leBytes 8 v.toNat

/-- `read_u64_le`, kupyna/src/utils.rs:84-91 -/
def Kupyna.readC (m : Nat) (src : Bytes) : Option (List W64) := do
  check (src.length = 8 * m)
  load (List.replicate m (0 : W64)) src 8 (fromLe 64)

/-- kupyna/src/short.rs:123-145 (`off = 64`, `size = 72`, `COLS = 8`), long.rs:125-147 (`off = 128`, `size = 136`, `COLS = 16`) -/
def Kupyna.saveC (size off cols : Nat) : SaveC (List W64 × W64) where
  size := size
  ser := fun s => do
    let (stateDst, lenDst) ← split (List.replicate size (0 : Byte)) off
    let stateDst ← writeC s.1 stateDst
    let lenDst ← copy lenDst 0 lenDst.length (leBytes 8 s.2.toNat)
    pure (stateDst ++ lenDst)
  des := fun raw => do
    let (a, b) ← split raw off
    pure (← readC cols a, ← fromLe 64 b)

/-- md2/src/lib.rs:156-173 -/
def Md2.saveC : SaveC Md2.State where
  size := 64
  ser := fun s => do pure ((← exactly 48 s.x) ++ (← exactly 16 s.checksum))
  des := fun raw => do
    let (x, checksum) ← split raw 48
    pure ⟨← exactly 48 x, ← exactly 16 checksum⟩

/-- gost94/src/gost94_core.rs:296-338 -/
def Gost94.saveC : SaveC Gost94.StateC where
  size := 96
  ser := fun s => do
    let h ← exactly 32 s.h
    let n ← serArr 32 s.n
    let sigma ← serArr 32 s.sigma
    pure (h ++ n ++ sigma)
  des := fun raw => do
    let (h, rem) ← split raw 32
    let (n, sigma) ← split rem 32
    let n ← desArr 64 4 n
    let sigma ← desArr 64 4 sigma
    pure ⟨← exactly 32 h, n, sigma⟩

/-- streebog/src/core_api.rs:172-192 -/
def Streebog.saveC : SaveC (List W64 × List W64 × List W64) where
  size := 192
  ser := fun s => do
    let h ← Streebog.toBytesC s.1
    let n ← Streebog.toBytesC s.2.1
    let sigma ← Streebog.toBytesC s.2.2
    pure (h ++ n ++ sigma)
  des := fun raw => do
    let (h, rem) ← split raw 64
    let (n, sigma) ← split rem 64
    pure (← Streebog.fromBytesC (← exactly 64 h), ← Streebog.fromBytesC (← exactly 64 n), ← Streebog.fromBytesC (← exactly 64 sigma))

/-- shabal/src/core_api.rs:264-318 -/
def Shabal.saveC : SaveC Shabal.StateC where
  size := 184
  ser := fun s => do
    let a ← serArr 48 s.a
    let b ← serArr 64 s.b
    let c ← serArr 64 s.c
    let w ← copy (List.replicate 8 (0 : Byte)) 0 8 (leBytes 8 s.w.toNat)
    pure (a ++ b ++ c ++ w)
  des := fun raw => do
    let (a, rem) ← split raw 48
    let a ← desArr 32 12 a
    let (b, rem) ← split rem 64
    let b ← desArr 32 16 b
    let (c, w) ← split rem 64
    let c ← desArr 32 16 c
    pure ⟨a, b, c, ← fromLe 64 w⟩

/-- whirlpool/src/lib.rs:150-189 -/
def Whirlpool.saveC : SaveC (List W64 × List W64) where
  size := 96
  ser := fun s => do
    let a ← serArr 64 s.1
    let b ← serArr 32 s.2
    pure (a ++ b)
  des := fun raw => do
    let (a, b) ← split raw 64
    pure (← desArr 64 8 a, ← desArr 64 4 b)

/-- sha3/src/macros.rs:97-127; `Sha3State::default()` has 25 zero lanes. -/
def Sha3.saveC : SaveC Sha3.Lanes where
  size := 200
  ser := fun s => serArr 200 s
  des := fun raw => desArr 64 25 raw

/-- fsb/src/macros.rs:98-123; `statesize` is a macro argument of its own (lib.rs:42, :59, :76, :93, :110). -/
def Fsb.saveC (P : Fsb.Params) (statesize : Nat) : SaveC (Bytes × W64) where
  size := statesize + 8
  ser := fun s => do
    let st := List.replicate (statesize + 8) (0 : Byte)
    let st ← copy st 0 s.1.length s.1
    copy st s.1.length st.length (leBytes 8 s.2.toNat)
  des := fun raw => do
    let (a, b) ← split raw statesize
    let state ← copy (List.replicate (P.r / 8) (0 : Byte)) 0 (P.r / 8) a
    pure (state, ← fromLe 64 b)

end Hashes
