import Verif.Base.Rust
/-
What an observer of the memory accesses and of the branches sees while Rust code runs: the index of every array access, the bounds of
every slice, the outcome of every branch and of every run-time check.  Used by the files in Verif/Leak, which repeat those of
Verif/Checked with these operations in place of those of Base/Rust.lean; forgetting the observations (`val`) gives the latter back.
Not observations: the operands of arithmetic, logic, shifts by constants and rotations (constant time on the processors in question).
-/
namespace Hashes

inductive Obs where
  /-- `a[i]` read or written -/
  | index (i : Nat)
  /-- `a[i..j]` taken, read or written -/
  | range (i j : Nat)
  /-- a branch or run-time check -/
  | branch (b : Bool)
deriving DecidableEq, Repr

/-- The result (`none`: panic) and the observations so far. -/
structure Leak (α : Type) where
  val : Option α
  obs : List Obs
deriving DecidableEq

namespace Leak
variable {α β σ : Type} {w : Nat}

def bind (x : Leak α) (f : α → Leak β) : Leak β :=
  match x.val with
  | none => ⟨none, x.obs⟩
  | some a => ⟨(f a).val, x.obs ++ (f a).obs⟩

instance : Monad Leak where
  pure a := ⟨some a, []⟩
  bind := bind

/-- An operation of Base/Rust.lean together with what it shows. -/
def emit (o : Obs) (x : Option α) : Leak α := ⟨x, [o]⟩

/-- `panic!`, `unreachable!()` -/
def panic : Leak α := ⟨none, []⟩

/-- `if p { a } else { b }` -/
def branch (p : Prop) [Decidable p] (a b : Leak α) : Leak α := do
  let _ ← emit (.branch (decide p)) (some ())
  if p then a else b

def idx (a : List α) (i : Nat) : Leak α := emit (.index i) (Rs.idx a i)
def upd (a : List α) (i : Nat) (v : α) : Leak (List α) := emit (.index i) (Rs.upd a i v)
def slice (a : List α) (i j : Nat) : Leak (List α) := emit (.range i j) (Rs.slice a i j)
def copy (a : List α) (i j : Nat) (v : List α) : Leak (List α) := emit (.range i j) (Rs.copy a i j v)
/-- Checked operators: whether the check passes is seen. -/
def seen (x : Option α) : Leak α := emit (.branch x.isSome) x
def usub (i j : Nat) : Leak Nat := seen (Rs.usub i j)
def add (x y : BitVec w) : Leak (BitVec w) := seen (Rs.add x y)
def sub (x y : BitVec w) : Leak (BitVec w) := seen (Rs.sub x y)
def mul (x y : BitVec w) : Leak (BitVec w) := seen (Rs.mul x y)
def shl (x : BitVec w) (k : Nat) : Leak (BitVec w) := seen (Rs.shl x k)
def shr (x : BitVec w) (k : Nat) : Leak (BitVec w) := seen (Rs.shr x k)
def check (p : Prop) [Decidable p] : Leak Unit := seen (Rs.check p)
def fromLe (w : Nat) (chunk : Bytes) : Leak (BitVec w) := seen (Rs.fromLe w chunk)
def fromBe (w : Nat) (chunk : Bytes) : Leak (BitVec w) := seen (Rs.fromBe w chunk)

def loop (n : Nat) (s : σ) (f : σ → Nat → Leak σ) : Leak σ := (List.range n).foldlM f s

/-- `for i in (0..n).rev() { … }` -/
def loopRev (n : Nat) (s : σ) (f : σ → Nat → Leak σ) : Leak σ := (List.range n).reverse.foldlM f s

def load (a : List β) (b : List α) (k : Nat) (conv : List α → Leak β) : Leak (List β) := do
  let r ← (a.zip (chunks k b)).foldlM (fun (s : List β × Nat) (p : β × List α) => do
    let v ← conv p.2
    let _ ← emit (.index s.2) (some ())
    pure (s.1.set s.2 v, s.2 + 1)) (a, 0)
  pure r.1

def store (b : List β) (a : List α) (k : Nat) (conv : α → List β) : Leak (List β) := do
  let r ← ((chunks k b).zip a).foldlM (fun (s : List β × Nat) (p : List β × α) => do
    let b ← copy s.1 (k * s.2) (k * s.2 + k) (conv p.2)
    pure (b, s.2 + 1)) (b, 0)
  pure r.1

end Leak
end Hashes
