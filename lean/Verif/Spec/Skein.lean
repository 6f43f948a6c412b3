import Verif.Base.Bytes
/-
"The Skein Hash Function Family", version 1.3: UBI chaining, configuration string, output function, simple hashing; and the
Threefish block cipher (for concrete instances).
-/
namespace Hashes.Spec.Skein

def xor (a b : Bytes) : Bytes := List.zipWith (· ^^^ ·) a b

/-- The 128-bit tweak: position (bits 0–95), type (120–125), first (126), final (127). -/
def tweak (type pos : Nat) (first final : Bool) : BitVec 128 :=
  BitVec.ofNat 128 (pos + type * 2 ^ 120 + (if first then 2 ^ 126 else 0) + if final then 2 ^ 127 else 0)

/-- Number of `nb`-byte blocks of a message of `len` bytes: at least one. -/
def nBlocks (nb len : Nat) : Nat := max 1 ((len + nb - 1) / nb)

/-- Block `i` of the message padded with zeros. -/
def blockAt (nb : Nat) (m : Bytes) (i : Nat) : Bytes :=
  let b := (m.drop (i * nb)).take nb
  b ++ List.replicate (nb - b.length) 0

/-- `UBI(G, M, type · 2^120)` over the block cipher `F key tweak block` with `nb`-byte blocks. -/
def ubi (F : Bytes → BitVec 128 → Bytes → Bytes) (nb : Nat) (G M : Bytes) (type : Nat) : Bytes :=
  let k := nBlocks nb M.length
  (List.range k).foldl (fun H i =>
    xor (F H (tweak type (min M.length ((i + 1) * nb)) (i == 0) (i == k - 1)) (blockAt nb M i)) (blockAt nb M i)) G

/-- Configuration string for `N` output bytes: identifier "SHA3", version 1, output length in bits, no tree. -/
def config (N : Nat) : Bytes :=
  [0x53, 0x48, 0x41, 0x33] ++ leBytes 2 1 ++ leBytes 2 0 ++ leBytes 8 (8 * N) ++ List.replicate 16 0

/-- `Output(G, N)`: the first `N` bytes of `UBI(G, 0, out) ‖ UBI(G, 1, out) ‖ …`. -/
def output (F : Bytes → BitVec 128 → Bytes → Bytes) (nb : Nat) (G : Bytes) (N : Nat) : Bytes :=
  ((List.range ((N + nb - 1) / nb)).flatMap fun i => ubi F nb G (leBytes 8 i) 63).take N

/-- Simple hashing. -/
def hash (F : Bytes → BitVec 128 → Bytes → Bytes) (nb N : Nat) (m : Bytes) : Bytes :=
  output F nb (ubi F nb (ubi F nb (List.replicate nb 0) (config N) 4) m 48) N

/-! ### Threefish -/

/-- Rotation constants `R_{d,j}` and word permutation for 4, 8 and 16 words. -/
def rotations (nw : Nat) : List (List Nat) :=
  match nw with
  | 4 => [[14, 16], [52, 57], [23, 40], [5, 37], [25, 33], [46, 12], [58, 22], [32, 32]]
  | 8 => [[46, 36, 19, 37], [33, 27, 14, 42], [17, 49, 36, 39], [44, 9, 54, 56], [39, 30, 34, 24], [13, 50, 10, 17],
      [25, 29, 39, 43], [8, 35, 56, 22]]
  | _ => [[24, 13, 8, 47, 8, 17, 22, 37], [38, 19, 10, 55, 49, 18, 23, 52], [33, 4, 51, 13, 34, 41, 59, 17],
      [5, 20, 48, 41, 47, 28, 16, 25], [41, 9, 37, 31, 12, 47, 44, 30], [16, 34, 56, 51, 4, 53, 42, 41],
      [31, 44, 47, 46, 19, 42, 44, 25], [9, 48, 35, 52, 23, 31, 37, 20]]
def perm (nw : Nat) : List Nat :=
  match nw with
  | 4 => [0, 3, 2, 1]
  | 8 => [2, 1, 4, 7, 6, 5, 0, 3]
  | _ => [0, 9, 2, 13, 6, 11, 4, 15, 10, 7, 12, 3, 14, 5, 8, 1]
def rounds (nw : Nat) : Nat := if nw = 16 then 80 else 72

/-- Threefish encryption on words. -/
def threefishW (nw : Nat) (k : List W64) (t : List W64) (p : List W64) : List W64 :=
  let k := k ++ [k.foldl (· ^^^ ·) 0x1BD11BDAA9FC1A22]
  let t := t ++ [t.getD 0 0 ^^^ t.getD 1 0]
  let subkey (s : Nat) : List W64 := (List.range nw).map fun i =>
    k.getD ((s + i) % (nw + 1)) 0 +
      (if i = nw - 3 then t.getD (s % 3) 0 else if i = nw - 2 then t.getD ((s + 1) % 3) 0
       else if i = nw - 1 then BitVec.ofNat 64 s else 0)
  let v := (List.range (rounds nw)).foldl (fun v d =>
    let e := if d % 4 = 0 then List.zipWith (· + ·) v (subkey (d / 4)) else v
    let f := (List.range nw).map fun i =>
      let y0 := e.getD (i / 2 * 2) 0 + e.getD (i / 2 * 2 + 1) 0
      if i % 2 = 0 then y0 else (e.getD i 0).rotateLeft (((rotations nw).getD (d % 8) []).getD (i / 2) 0) ^^^ y0
    (perm nw).map fun i => f.getD i 0) p
  List.zipWith (· + ·) v (subkey (rounds nw / 4))

/-- Threefish on byte strings. -/
def threefish (nw : Nat) (key : Bytes) (t : BitVec 128) (x : Bytes) : Bytes :=
  bytesOfWordsLE (threefishW nw ((List.range nw).map (wordLE 64 key)) [t.extractLsb' 0 64, t.extractLsb' 64 64]
    ((List.range nw).map (wordLE 64 x)))

end Hashes.Spec.Skein
