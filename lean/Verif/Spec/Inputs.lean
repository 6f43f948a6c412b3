import Verif.Spec.Padding
import Verif.Spec.Skein
import Verif.Spec.Fips202
/- The arguments of the successive calls of the inner function of the chained hashes that are not plain Merkle–Damgård: used by C63. -/
namespace Hashes.Spec

/-- Zeros up to a multiple of `bs` bytes. -/
def zpad (bs : Nat) (m : Bytes) : Bytes := m ++ List.replicate (zeroFill bs m.length) 0

/-- GOST R 34.11-94: the blocks of the zero-padded message, its bit length, the sum of the blocks as numbers. -/
def gostInput (m : Bytes) : List Bytes :=
  let l := chunks 32 (zpad 32 m)
  l ++ [leBytes 32 (8 * m.length), leBytes 32 (l.map ofLE).sum]

/-- GOST R 34.11-2012 (Streebog): pairs of counter and block: the blocks of the message padded with a one bit and zeros, the bit length,
the sum of the blocks. -/
def streebogInput (m : Bytes) : List (Bytes × Bytes) :=
  let l := chunks 64 (mdPad 64 1 [] m)
  l.zipIdx.map (fun b => (leBytes 64 (512 * b.2), b.1)) ++
    [(List.replicate 64 0, leBytes 64 (8 * m.length)), (List.replicate 64 0, leBytes 64 (l.map ofLE).sum)]

/-- BLAKE2 (RFC 7693, §3.3): triples of the number of bytes so far, block and last-block flag. -/
def blake2Input (bb : Nat) (m : Bytes) : List (Nat × Bytes × Bool) :=
  let n := (m.length - 1) / bb
  (List.range n).map (fun i => ((i + 1) * bb, (m.drop (i * bb)).take bb, false)) ++
    [(m.length, m.drop (n * bb) ++ List.replicate (bb - (m.drop (n * bb)).length) 0, true)]

/-- Skein with an output of one block: pairs of tweak and block of the message chain, then of the output transform. -/
def skeinInput (nb : Nat) (m : Bytes) : List (BitVec 128 × Bytes) :=
  let k := Skein.nBlocks nb m.length
  (List.range k).map (fun i => (Skein.tweak 48 (min m.length ((i + 1) * nb)) (i == 0) (i == k - 1), Skein.blockAt nb m i)) ++
    [(Skein.tweak 63 8 true true, List.replicate nb 0)]

/-- KT128 (RFC 9861, §3.2): the nodes: input, domain separation byte, number of output bytes. -/
def kt128Nodes (m c : Bytes) (L : Nat) : List (Bytes × Byte × Nat) :=
  let S := m ++ c ++ K12.lengthEncode c.length
  if S.length ≤ 8192 then [(S, 0x07, L)]
  else
    match K12.cut S with
    | [] => []
    | S0 :: rest =>
      let cvs := rest.map fun Si => Keccak.turboShake 128 Si 0x0B 32
      rest.map (fun Si => (Si, 0x0B, 32)) ++
        [(S0 ++ [0x03, 0, 0, 0, 0, 0, 0, 0] ++ cvs.flatten ++ K12.lengthEncode rest.length ++ [0xff, 0xff], 0x06, L)]

end Hashes.Spec
