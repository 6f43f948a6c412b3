import Verif.Spec.Fips180
/-
SM3 from GB/T 32905-2016 (also draft-sca-cfrg-sm3); independent of the model.
-/
namespace Hashes.Spec.Sm3

/-- §4.2: constants `T_j`. -/
def T (j : Nat) : W32 := if j < 16 then 0x79cc4519 else 0x7a879d8a
/-- §4.3: boolean function `FF_j`. -/
def FF (j : Nat) (x y z : W32) : W32 := if j < 16 then x ^^^ y ^^^ z else (x &&& y) ||| (x &&& z) ||| (y &&& z)
/-- §4.3: boolean function `GG_j`. -/
def GG (j : Nat) (x y z : W32) : W32 := if j < 16 then x ^^^ y ^^^ z else (x &&& y) ||| (~~~x &&& z)
/-- §4.4 -/
def P0 (x : W32) : W32 := x ^^^ x.rotateLeft 9 ^^^ x.rotateLeft 17
/-- §4.4 -/
def P1 (x : W32) : W32 := x ^^^ x.rotateLeft 15 ^^^ x.rotateLeft 23

/-- §5.3.2: `W_0 .. W_67`. -/
def schedule (block : Bytes) : List W32 :=
  expand (fun p => P1 (p.getD 15 0 ^^^ p.getD 8 0 ^^^ (p.getD 2 0).rotateLeft 15) ^^^ (p.getD 12 0).rotateLeft 7 ^^^
    p.getD 5 0) 52 ((List.range 16).map (wordBE 32 block))

/-- §5.3.3: round `j` on A..H. -/
def round (j : Nat) (Wj Wj' : W32) (s : V8 W32) : V8 W32 :=
  let SS1 := (s.x0.rotateLeft 12 + s.x4 + (T j).rotateLeft (j % 32)).rotateLeft 7
  let SS2 := SS1 ^^^ s.x0.rotateLeft 12
  let TT1 := FF j s.x0 s.x1 s.x2 + s.x3 + SS2 + Wj'
  let TT2 := GG j s.x4 s.x5 s.x6 + s.x7 + SS1 + Wj
  ⟨TT1, s.x0, s.x1.rotateLeft 9, s.x2, P0 TT2, s.x4, s.x5.rotateLeft 19, s.x6⟩

/-- Rounds `0 .. n-1`; `W'_j = W_j xor W_{j+4}`. -/
def rounds (W : Nat → W32) : Nat → V8 W32 → V8 W32
  | 0, s => s
  | n + 1, s => round n (W n) (W n ^^^ W (n + 4)) (rounds W n s)

/-- §5.3.3: compression function. -/
def compress (V : V8 W32) (block : Bytes) : V8 W32 :=
  let W := schedule block
  V.zip (· ^^^ ·) (rounds (fun t => W.getD t 0) 64 V)

/-- §4.1 -/
def IV : V8 W32 :=
  ⟨0x7380166f, 0x4914b2b9, 0x172442d7, 0xda8a0600, 0xa96f30bc, 0x163138aa, 0xe38dee4d, 0xb0fb0e4e⟩

/-- §5.2: padding. -/
def pad (m : Bytes) : Bytes := mdPad 64 0x80 (beBytes 8 (8 * m.length)) m

/-- SM3. -/
def sm3 (m : Bytes) : Bytes := bytesOfWordsBE ((chunks 64 (pad m)).foldl compress IV).toList

end Hashes.Spec.Sm3
