import Verif.Base.Rust
import Verif.Model.Streebog
/- Streebog statement by statement, with Rust's run-time checks: /repo/streebog/src/core_api.rs. -/
namespace Hashes.Streebog
open Rs

/-- `lps`, core_api.rs:33-48: the new `*h`. -/
def lpsC (h n : List W64) : Option (List W64) := do
  let h ← loop 8 h fun h i => do upd h i ((← idx h i) ^^^ (← idx n i))
  let buf := List.replicate 8 (0 : W64)
  loop 8 buf fun buf i => loop 8 buf fun buf j => do
    let k := ((← shr (← idx h j) (8 * i)) &&& 0xff).toNat
    upd buf i ((← idx buf i) ^^^ (← idx (← idx SHUFFLED_LIN_TABLE j) k))

/-- `g`, core_api.rs:50-64: the new `*h`. -/
def gC (h n m : List W64) : Option (List W64) := do
  let key := h
  let block := m
  let key ← lpsC key n
  let kb ← C64.foldlM (fun (kb : List W64 × List W64) c => do
    let block ← lpsC kb.2 kb.1
    let key ← lpsC kb.1 c.toList
    pure (key, block)) (key, block)
  loop 8 h fun h i => do upd h i ((← idx h i) ^^^ ((← idx kb.2 i) ^^^ (← idx kb.1 i) ^^^ (← idx m i)))

/-- `update_sigma`, core_api.rs:68-74 -/
def updateSigmaC (sigma m : List W64) : Option (List W64) := do
  let s ← loop 8 (sigma, false) fun s i => do
    let r := adc (← idx s.1 i) (← idx m i) s.2
    pure (← upd s.1 i r.1, r.2)
  pure s.1

/-- `update_n`, core_api.rs:77-84 -/
def updateNC (n : List W64) (len : W64) : Option (List W64) := do
  let r := adc (← idx n 0) (← mul 8 len) false
  let n ← upd n 0 r.1
  let s ← loop 6 (n, r.2) fun s i => do
    let r := adc (← idx s.1 (i + 1)) 0 s.2
    pure (← upd s.1 (i + 1) r.1, r.2)
  pure s.1

/-- `from_bytes`, core_api.rs:214-220 -/
def fromBytesC (b : Bytes) : Option (List W64) := load (List.replicate 8 (0 : W64)) b 8 (fromLe 64)

/-- `to_bytes`, core_api.rs:205-211 -/
def toBytesC (b : List W64) : Option Bytes := store (List.replicate 64 (0 : Byte)) b 8 fun v => leBytes 8 v.toNat

/-- `compress`, core_api.rs:87-92: the new `(h, n, sigma)`. -/
def compressC (h n sigma : List W64) (block : Bytes) (msgLen : W64) : Option (List W64 × List W64 × List W64) := do
  let block ← fromBytesC block
  let h ← gC h n block
  let n ← updateNC n msgLen
  let sigma ← updateSigmaC sigma block
  pure (h, n, sigma)

/-- `finalize_variable_core`, core_api.rs:133-141. `get_pos` and `pad_with_zeros` belong to block-buffer. -/
def finalizeC (h n sigma : List W64) (buffer : BlockBuffer) (out : Bytes) : Option Bytes := do
  let pos := buffer.pos
  let block := (buffer.padWithZeros 64).1
  let block ← upd block pos 1
  let (h, n, sigma) ← compressC h n sigma block (BitVec.ofNat 64 pos)
  let h ← gC h (List.replicate 8 0) n
  let h ← gC h (List.replicate 8 0) sigma
  copy out 0 out.length (← toBytesC h)

end Hashes.Streebog
