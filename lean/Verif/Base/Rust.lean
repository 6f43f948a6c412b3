import Verif.Base.Bytes
/-
Rust's run-time checks, as in a build with overflow checks on: an expression that would panic is `none`.  Used by the files in
Verif/Checked, which transcribe block functions statement by statement.  Loop counters and array indices are natural numbers;
the sums and products of them that occur are below 2^16, so only subtractions of `usize` are checked.
-/
namespace Hashes.Rs
variable {α β σ : Type} {w : Nat}

/-- `a[i]` -/
def idx (a : List α) (i : Nat) : Option α := a[i]?
/-- `a[i] = v` -/
def upd (a : List α) (i : Nat) (v : α) : Option (List α) := if i < a.length then some (a.set i v) else none
/-- `&a[i..j]` -/
def slice (a : List α) (i j : Nat) : Option (List α) :=
  if i ≤ j ∧ j ≤ a.length then some ((a.drop i).take (j - i)) else none
/-- `a[i..j].copy_from_slice(v)` -/
def copy (a : List α) (i j : Nat) (v : List α) : Option (List α) :=
  if i ≤ j ∧ j ≤ a.length ∧ v.length = j - i then some (a.take i ++ v ++ a.drop j) else none
/-- `i - j` on `usize` -/
def usub (i j : Nat) : Option Nat := if j ≤ i then some (i - j) else none
/-- `x + y` -/
def add (x y : BitVec w) : Option (BitVec w) := if x.toNat + y.toNat < 2 ^ w then some (x + y) else none
/-- `x - y` -/
def sub (x y : BitVec w) : Option (BitVec w) := if y.toNat ≤ x.toNat then some (x - y) else none
/-- `x * y` -/
def mul (x y : BitVec w) : Option (BitVec w) := if x.toNat * y.toNat < 2 ^ w then some (x * y) else none
/-- `x << k` (bits shifted out are dropped without a check, the amount is checked) -/
def shl (x : BitVec w) (k : Nat) : Option (BitVec w) := if k < w then some (x <<< k) else none
/-- `x >> k` -/
def shr (x : BitVec w) (k : Nat) : Option (BitVec w) := if k < w then some (x >>> k) else none
/-- `assert!`, `assert_eq!`, `debug_assert!` -/
def check (p : Prop) [Decidable p] : Option Unit := if p then some () else none

/-- `for i in 0..n { s = f(s, i) }` -/
def loop (n : Nat) (s : σ) (f : σ → Nat → Option σ) : Option σ := (List.range n).foldlM f s
/-- `for i in (0..n).rev() { s = f(s, i) }` -/
def loopRev (n : Nat) (s : σ) (f : σ → Nat → Option σ) : Option σ := (List.range n).reverse.foldlM f s

/-- `u32::from_le_bytes(chunk.try_into().unwrap())` and the like -/
def fromLe (w : Nat) (chunk : Bytes) : Option (BitVec w) :=
  if chunk.length = w / 8 then some (BitVec.ofNat w (ofLE chunk)) else none
/-- `u32::from_be_bytes(chunk.try_into().unwrap())` and the like -/
def fromBe (w : Nat) (chunk : Bytes) : Option (BitVec w) :=
  if chunk.length = w / 8 then some (BitVec.ofNat w (ofBE chunk)) else none

/-- `for (o, chunk) in a.iter_mut().zip(b.chunks_exact(k)) { *o = conv(chunk) }`: entries beyond the shorter iterator keep their
value. -/
def load (a : List β) (b : List α) (k : Nat) (conv : List α → Option β) : Option (List β) :=
  Option.map Prod.fst <| (a.zip (chunks k b)).foldlM (fun (s : List β × Nat) (p : β × List α) => do
    let v ← conv p.2
    pure (s.1.set s.2 v, s.2 + 1)) (a, 0)

/-- `for (o, v) in b.chunks_exact_mut(k).zip(a.iter()) { o.copy_from_slice(&conv(v)) }` -/
def store (b : List β) (a : List α) (k : Nat) (conv : α → List β) : Option (List β) :=
  Option.map Prod.fst <| ((chunks k b).zip a).foldlM (fun (s : List β × Nat) (p : List β × α) => do
    let b ← copy s.1 (k * s.2) (k * s.2 + k) (conv p.2)
    pure (b, s.2 + 1)) (b, 0)

end Hashes.Rs
