import Verif.Base.Bytes
/- GOST R 34.11-94, written from RFC 5831 (hash) and RFC 5830 (GOST 28147-89 encryption). Independent of the model: all vectors
are bit vectors of 256, 64, 32 or 16 bits. The substitution `S` (eight rows of 16 nibbles) and the initial value are
parameters, as in the standard. -/
namespace Hashes.Spec.Gost94

abbrev V := BitVec 256

/-- The eight 4-bit substitutions. -/
abbrev Box := List (List Byte)

/-! ### GOST 28147-89 in the electronic codebook mode -/

/-- Substitution of the eight nibbles. -/
def subst (s : Box) (x : W32) : W32 :=
  BitVec.ofNat 32 (((List.range 8).map fun i => ((s.getD i []).getD (x.toNat / 16 ^ i % 16) 0).toNat * 16 ^ i).sum)

/-- The round function. -/
def round (s : Box) (n : W32 × W32) (k : W32) : W32 × W32 := (n.2 ^^^ (subst s (n.1 + k)).rotateLeft 11, n.1)

/-- Encryption: 32 rounds with the key words `1..8` three times and `8..1` once; the last round does not exchange the halves. -/
def E (s : Box) (K : V) (t : W64) : W64 :=
  let k := fun i => K.extractLsb' (32 * i) 32
  let n := [0, 1, 2, 3, 4, 5, 6, 7, 0, 1, 2, 3, 4, 5, 6, 7, 0, 1, 2, 3, 4, 5, 6, 7, 7, 6, 5, 4, 3, 2, 1, 0].foldl
    (fun n i => round s n (k i)) (t.extractLsb' 0 32, t.extractLsb' 32 32)
  n.1 ++ n.2

/-! ### The step hash function χ -/

/-- `A(Y) = (y1 ⊕ y2) ‖ y4 ‖ y3 ‖ y2`. -/
def A (Y : V) : V :=
  let y := fun i => Y.extractLsb' (64 * (i - 1)) 64
  (y 1 ^^^ y 2) ++ y 4 ++ y 3 ++ y 2

/-- `P(Y) = y_φ(32) ‖ … ‖ y_φ(1)`, `φ(i + 1 + 4(k - 1)) = 8 i + k`. -/
def P (Y : V) : V :=
  BitVec.ofNat 256 (ofLE ((List.range 32).map fun t => Y.extractLsb' (8 * (8 * (t % 4) + t / 4)) 8))

/-- `C_3`, bytes from the most significant. -/
def C3 : V := BitVec.ofNat 256 (ofBE [0xff, 0, 0xff, 0xff, 0, 0, 0, 0xff, 0xff, 0, 0, 0xff, 0, 0xff, 0xff, 0,
  0, 0xff, 0, 0xff, 0, 0xff, 0, 0xff, 0xff, 0, 0xff, 0, 0xff, 0, 0xff, 0])

/-- `C_j`. -/
def C (j : Nat) : V := if j = 3 then C3 else 0

/-- Key generation: the pairs `(U, V)` for step `j` (from 1). -/
def uv (H M : V) : Nat → V × V
  | 0 => (H, M)
  | 1 => (H, M)
  | j + 1 => (A (uv H M j).1 ^^^ C (j + 1), A (A (uv H M j).2))

def key (H M : V) (j : Nat) : V := P ((uv H M j).1 ^^^ (uv H M j).2)

/-- `ψ(Γ) = (γ1 ⊕ γ2 ⊕ γ3 ⊕ γ4 ⊕ γ13 ⊕ γ16) ‖ γ16 ‖ … ‖ γ2`. -/
def psi (G : V) : V :=
  let w := fun i => G.extractLsb' (16 * (i - 1)) 16
  (w 1 ^^^ w 2 ^^^ w 3 ^^^ w 4 ^^^ w 13 ^^^ w 16) ++ G.extractLsb' 16 240

/-- `ψ^n` -/
def psiN : Nat → V → V
  | 0, G => G
  | n + 1, G => psi (psiN n G)

/-- `χ(M, H) = ψ^61(H ⊕ ψ(M ⊕ ψ^12(S)))`, `S = s4 ‖ s3 ‖ s2 ‖ s1`, `s_i = E_(K_i)(h_i)`. -/
def chi (s : Box) (H M : V) : V :=
  let e := fun i => E s (key H M i) (H.extractLsb' (64 * (i - 1)) 64)
  let S : V := e 4 ++ e 3 ++ e 2 ++ e 1
  psiN 61 (H ^^^ psi (M ^^^ psiN 12 S))

/-! ### The hash -/

/-- A block of at most 32 bytes as a vector, padded with zeros at the most significant end. -/
def vec (b : Bytes) : V := BitVec.ofNat 256 (ofLE b)

/-- One block: `H := χ(M, H)`, `Σ := Σ + M mod 2^256`. -/
def step (s : Box) (st : V × V) (b : Bytes) : V × V := (chi s st.1 (vec b), st.2 + vec b)

/-- The message cut into 32-byte blocks, the last one possibly shorter (but not empty). -/
def split (m : Bytes) : List Bytes :=
  blocks 32 (m.length / 32) m ++ (if m.length % 32 = 0 then [] else [m.drop (32 * (m.length / 32))])

/-- GOST R 34.11-94 with substitution `s` and initial value `h0`. -/
def hash (s : Box) (h0 : V) (m : Bytes) : Bytes :=
  let st := (split m).foldl (step s) (h0, 0)
  let H := chi s st.1 (BitVec.ofNat 256 (8 * m.length))
  let H := chi s H st.2
  leBytes 32 H.toNat

end Hashes.Spec.Gost94
