import Verif.Isa.Arm
import Verif.Model.Sha512
/- Model of the AArch64 backend of SHA-512, /repo/sha2/src/sha512/aarch64.rs. -/
namespace Hashes.Sha512.Arm
open Simd Hashes.Arm

/-- `vld1q_u64(&K64[t])`: two consecutive constants. -/
def ldK (t : Nat) : V128 := load (bytesOfWordsLE (K64.drop t)) 0

/-- The mutable variables `ab`, `cd`, `ef`, `gh`. -/
abbrev Regs := V4 V128

/-- Two rounds, e.g. aarch64.rs:49-53, with the variables playing the roles of `ab, cd, ef, gh` passed in order;
returns the new values of the variables in the roles `gh` and `cd`. -/
def rounds2 (ab cd ef gh s : V128) (t : Nat) : V128 × V128 :=
  let initialSum := vaddq_u64 s (ldK t)
  let sum := vaddq_u64 (vextq_u64 initialSum initialSum 1) gh
  let intermed := vsha512hq_u64 sum (vextq_u64 ef gh 1) (vextq_u64 cd ef 1)
  let gh := vsha512h2q_u64 intermed cd ab
  let cd := vaddq_u64 cd intermed
  (gh, cd)

/-- Rounds `t .. t+7` with message vectors `a, b, c, d` (aarch64.rs:48-74 for `t = 0`): the roles of the four
variables rotate. -/
def rounds8 (r : Regs) (a b c d : V128) (t : Nat) : Regs :=
  let ⟨ab, cd, ef, gh⟩ := r
  let x := rounds2 ab cd ef gh a t
  let gh := x.1; let cd := x.2
  let x := rounds2 gh ab cd ef b (t + 2)
  let ef := x.1; let ab := x.2
  let x := rounds2 ef gh ab cd c (t + 4)
  let cd := x.1; let gh := x.2
  let x := rounds2 cd ef gh ab d (t + 6)
  let ab := x.1; let ef := x.2
  ⟨ab, cd, ef, gh⟩

/-- `vsha512su1q_u64(vsha512su0q_u64(a, b), c, vextq_u64(d, e, 1))` -/
def schedule (a b c d e : V128) : V128 := vsha512su1q_u64 (vsha512su0q_u64 a b) c (vextq_u64 d e 1)

/-- The body of `for t in (16..80).step_by(16)`, aarch64.rs:104-167, on `(ab, .., gh)` and `(s0, .., s7)`; the rounds
are interleaved with the message schedule exactly as in the source. -/
def body (v : Regs × V8 V128) (t : Nat) : Regs × V8 V128 :=
  let ⟨⟨ab, cd, ef, gh⟩, ⟨s0, s1, s2, s3, s4, s5, s6, s7⟩⟩ := v
  let s0 := schedule s0 s1 s7 s4 s5
  let x := rounds2 ab cd ef gh s0 t; let gh := x.1; let cd := x.2
  let s1 := schedule s1 s2 s0 s5 s6
  let x := rounds2 gh ab cd ef s1 (t + 2); let ef := x.1; let ab := x.2
  let s2 := schedule s2 s3 s1 s6 s7
  let x := rounds2 ef gh ab cd s2 (t + 4); let cd := x.1; let gh := x.2
  let s3 := schedule s3 s4 s2 s7 s0
  let x := rounds2 cd ef gh ab s3 (t + 6); let ab := x.1; let ef := x.2
  let s4 := schedule s4 s5 s3 s0 s1
  let x := rounds2 ab cd ef gh s4 (t + 8); let gh := x.1; let cd := x.2
  let s5 := schedule s5 s6 s4 s1 s2
  let x := rounds2 gh ab cd ef s5 (t + 10); let ef := x.1; let ab := x.2
  let s6 := schedule s6 s7 s5 s2 s3
  let x := rounds2 ef gh ab cd s6 (t + 12); let cd := x.1; let gh := x.2
  let s7 := schedule s7 s0 s6 s3 s4
  let x := rounds2 cd ef gh ab s7 (t + 14); let ab := x.1; let ef := x.2
  (⟨ab, cd, ef, gh⟩, ⟨s0, s1, s2, s3, s4, s5, s6, s7⟩)

/-- The body of the loop over blocks, aarch64.rs:31-174. -/
def digestBlock (r : Regs) (block : Bytes) : Regs :=
  let orig := r
  let s := V8.ofFn fun i => vrev64q_u8 (load block (16 * i))
  let r := rounds8 r s.x0 s.x1 s.x2 s.x3 0
  let r := rounds8 r s.x4 s.x5 s.x6 s.x7 8
  let r := ([16, 32, 48, 64].foldl body (r, s)).1
  ⟨vaddq_u64 r.x0 orig.x0, vaddq_u64 r.x1 orig.x1, vaddq_u64 r.x2 orig.x2, vaddq_u64 r.x3 orig.x3⟩

/-- `sha512_compress`, aarch64.rs:21-182. -/
def compress (state : V8 W64) (blks : List Bytes) : V8 W64 :=
  let mem := bytesOfWordsLE state.toList
  let r := blks.foldl digestBlock ⟨load mem 0, load mem 16, load mem 32, load mem 48⟩
  V8.ofFn (wordLE 64 (store r.x0 ++ store r.x1 ++ store r.x2 ++ store r.x3))

end Hashes.Sha512.Arm
