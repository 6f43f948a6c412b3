import Verif.Base.Leak
import Verif.Base.Raw
/- What is seen of the accesses through raw pointers: the address. -/
namespace Hashes.Raw
open Leak (emit)

def Obj.loaduL (o : Obj) (p : Nat) : Leak V128 := emit (.index p) (o.loadu p)
def Obj.storeuL (o : Obj) (p : Nat) (v : V128) : Leak Obj := emit (.index p) (o.storeu p v)
def Obj.loadAtL (o : Obj) (k i : Nat) : Leak V128 := emit (.index (o.addr + k * i)) (o.loadAt k i)
def Obj.storeAtL (o : Obj) (k i : Nat) (v : V128) : Leak Obj := emit (.index (o.addr + k * i)) (o.storeAt k i v)
/-- The bounds of the slice, too. -/
def Obj.loadSliceL (o : Obj) (k i j : Nat) : Leak V128 := emit (.range (o.addr + k * i) (o.addr + k * j)) (o.loadSlice k i j)
def Obj.storeSliceL (o : Obj) (k i j : Nat) (v : V128) : Leak Obj := emit (.range (o.addr + k * i) (o.addr + k * j)) (o.storeSlice k i j v)
def Obj.loadElemL (o : Obj) (k i : Nat) : Leak V128 := emit (.index (o.addr + k * i)) (o.loadElem k i)
/-- `p.add(k)`: whether the result is in the object. -/
def addL (r : Region) (p n : Nat) : Leak Nat := Leak.seen (add r p n)
def derefL (r : Region) (align p size : Nat) : Leak Unit := emit (.index p) (deref r align p size)

end Hashes.Raw
