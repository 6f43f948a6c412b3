import Verif.Base.Leak
import Verif.Checked.Streebog
/- Streebog with what an observer of the memory accesses and branches sees (Base/Leak.lean); written by tools/gen_leak.py from
Verif/Checked/Streebog.lean, which says what is modelled. -/
namespace Hashes.Streebog
open Leak
/-- `lps`, core_api.rs:33-48: the new `*h`. -/
def lpsL (h n : List W64) : Leak (List W64) := do
  let h ← loop 8 h fun h i => do upd h i ((← idx h i) ^^^ (← idx n i))
  let buf := List.replicate 8 (0 : W64)
  loop 8 buf fun buf i => loop 8 buf fun buf j => do
    let k := ((← shr (← idx h j) (8 * i)) &&& 0xff).toNat
    upd buf i ((← idx buf i) ^^^ (← idx (← idx SHUFFLED_LIN_TABLE j) k))

/-- `g`, core_api.rs:50-64: the new `*h`. -/
def gL (h n m : List W64) : Leak (List W64) := do
  let key := h
  let block := m
  let key ← lpsL key n
  let kb ← C64.foldlM (fun (kb : List W64 × List W64) c => do
    let block ← lpsL kb.2 kb.1
    let key ← lpsL kb.1 c.toList
    pure (key, block)) (key, block)
  loop 8 h fun h i => do upd h i ((← idx h i) ^^^ ((← idx kb.2 i) ^^^ (← idx kb.1 i) ^^^ (← idx m i)))

/-- `update_sigma`, core_api.rs:68-74 -/
def updateSigmaL (sigma m : List W64) : Leak (List W64) := do
  let s ← loop 8 (sigma, false) fun s i => do
    let r := adc (← idx s.1 i) (← idx m i) s.2
    pure (← upd s.1 i r.1, r.2)
  pure s.1

/-- `update_n`, core_api.rs:77-84 -/
def updateNL (n : List W64) (len : W64) : Leak (List W64) := do
  let r := adc (← idx n 0) (← mul 8 len) false
  let n ← upd n 0 r.1
  let s ← loop 6 (n, r.2) fun s i => do
    let r := adc (← idx s.1 (i + 1)) 0 s.2
    pure (← upd s.1 (i + 1) r.1, r.2)
  pure s.1

/-- `from_bytes`, core_api.rs:214-220 -/
def fromBytesL (b : Bytes) : Leak (List W64) := load (List.replicate 8 (0 : W64)) b 8 (fromLe 64)

/-- `to_bytes`, core_api.rs:205-211 -/
def toBytesL (b : List W64) : Leak Bytes := store (List.replicate 64 (0 : Byte)) b 8 fun v => leBytes 8 v.toNat

/-- `compress`, core_api.rs:87-92: the new `(h, n, sigma)`. -/
def compressL (h n sigma : List W64) (block : Bytes) (msgLen : W64) : Leak (List W64 × List W64 × List W64) := do
  let block ← fromBytesL block
  let h ← gL h n block
  let n ← updateNL n msgLen
  let sigma ← updateSigmaL sigma block
  pure (h, n, sigma)

/-- `finalize_variable_core`, core_api.rs:133-141. `get_pos` and `pad_with_zeros` belong to block-buffer. -/
def finalizeL (h n sigma : List W64) (buffer : BlockBuffer) (out : Bytes) : Leak Bytes := do
  let pos := buffer.pos
  let block := (buffer.padWithZeros 64).1
  let block ← upd block pos 1
  let (h, n, sigma) ← compressL h n sigma block (BitVec.ofNat 64 pos)
  let h ← gL h (List.replicate 8 0) n
  let h ← gL h (List.replicate 8 0) sigma
  copy out 0 out.length (← toBytesL h)

end Hashes.Streebog
