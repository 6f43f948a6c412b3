#!/usr/bin/env python3
"""Generate lean/Verif/Proof/PiRows.lean (decimals of pi, by Chudnovsky's series) and Proof/PiSplit.lean (polynomials for 16 terms of
the arc tangent series). Neither is trusted: Proof/PiDigits.lean proves that the rows are the decimals of pi."""
import sys, os, decimal, time
sys.set_int_max_str_digits(0)
proof = os.path.join(os.path.dirname(os.path.abspath(__file__)), "..", "lean", "Verif", "Proof")
D = 2179072
t = time.time()
def bs(a,b):
    if b-a==1:
        if a==0: P=Q=1
        else:
            P=(6*a-5)*(2*a-1)*(6*a-1); Q=a**3*10939058860032000
        T=P*(13591409+545140134*a)
        if a&1: T=-T
        return P,Q,T
    m=(a+b)//2
    P1,Q1,T1=bs(a,m);P2,Q2,T2=bs(m,b)
    return P1*P2,Q1*Q2,Q2*T1+P1*T2
N=D//14+10
P,Q,T=bs(0,N)
print('bs',time.time()-t)
decimal.getcontext().prec=D+40
decimal.getcontext().Emax=10**9
def i2d(n):
    # int to Decimal via D&C
    def go(n,w):
        if w<=20000: return decimal.Decimal(n)
        h=w//2
        q=n>>h; r=n-(q<<h)
        return go(q,w-h)*p2(h)+go(r,h)
    cache={}
    def p2(h):
        if h not in cache:
            cache[h]=decimal.Decimal(2)**h
        return cache[h]
    old=decimal.getcontext().prec
    decimal.getcontext().prec=10*D
    v=go(n,n.bit_length())
    decimal.getcontext().prec=old
    return v
# truncate Q,T to common precision
sh=max(0,Q.bit_length()-int((D+60)*3.3219281))
Qd=i2d(Q>>sh);Td=i2d(T>>sh)
pi=Qd*426880*decimal.Decimal(10005).sqrt()/Td
s=str(pi)
print('pi',time.time()-t,s[:30])
s=s[2:2+D]

rows=[s[1064*i:1064*(i+1)] for i in range(2048)]
o=['''/-
The first 2179072 decimals of π, in 2048 rows of 1064 (generated by tools/gen_pi.py; proved to be those of π in
Proof/PiDigits.lean).
-/
namespace Hashes.Pi
''']
for c in range(16):
    o.append(f'def rows{c} : List Nat := [')
    # a leading zero is allowed in decimal literals? strip
    o.append(',\n'.join('  '+(r.lstrip('0') or '0') for r in rows[128*c:128*c+128])+']\n')
o.append('end Hashes.Pi')
open(os.path.join(proof, 'PiRows.lean'),'w').write('\n'.join(o)+'\n')

def polymul(a,b):
    r=[0]*(len(a)+len(b)-1)
    for i,x in enumerate(a):
        for j,y in enumerate(b): r[i+j]+=x*y
    return r
def polys(X,m):
    B=[1]
    for i in range(m): B=polymul(B,[2*i+1,2*m])
    T=[0]*m
    for j in range(m):
        p=[1]
        for i in range(m):
            if i!=j: p=polymul(p,[2*i+1,2*m])
        c=(-1)**j*X**(m-1-j)
        for e in range(m): T[e]+=c*p[e]
    assert all(t>0 for t in T)
    return B,T
def horner(c):
    s=str(c[-1])
    for x in reversed(c[:-1]): s=f"Nat.add (Nat.mul ({s}) k) {x}"
    return s
out=['''import Verif.Proof.PiSeries
/-
Numerators and denominators of the partial sums by halving (generated by tools/gen_pi.py): `T / (B · X^(L-1))` for the terms
`k·L … (k+1)·L-1`, `L = 16 · 2^h`; at the leaves, 16 terms, `B` and `T` are polynomials in `k`.
-/
namespace Hashes.Pi
''']
for X,nm in ((25,'25'),(239**2,'57121')):
    for m in (2,4,8,16):
        B,T=polys(X,m)
        if X==25: out.append(f'def den{m} (k : Nat) : Nat := {horner(B)}')
        out.append(f'def num{nm}_{m} (k : Nat) : Nat := {horner(T)}')
for m in (4,8,16):
    h=m//2
    out.append(f'''
theorem den{m}_eq (k : Nat) : den{m} k = den{h} (2 * k) * den{h} (2 * k + 1) := by
  simp only [den{m}, den{h}, Nat.add_eq, Nat.mul_eq]; ring''')
    for nm in ('25','57121'):
        out.append(f'''
theorem num{nm}_{m}_eq (k : Nat) :
    num{nm}_{m} k = num{nm}_{h} (2 * k) * den{h} (2 * k + 1) * {nm} ^ {h} + den{h} (2 * k) * num{nm}_{h} (2 * k + 1) := by
  simp only [num{nm}_{m}, num{nm}_{h}, den{h}, Nat.add_eq, Nat.mul_eq]; ring''')
for nm in ('25','57121'):
    out.append(f'''
theorem good{nm}_2 (k : Nat) : Good {nm} (2 * k) 2 (den2 k) (num{nm}_2 k) := by
  have h := good_two (X := {nm}) (by decide) (2 * k) (num{nm}_2 k) (by simp only [num{nm}_2, Nat.add_eq, Nat.mul_eq]; ring)
  have e : den2 k = (2 * (2 * k) + 1) * (2 * (2 * k) + 3) := by simp only [den2, Nat.add_eq, Nat.mul_eq]; ring
  rwa [e]''')
    for m in (4,8,16):
        h=m//2
        out.append(f'''
theorem good{nm}_{m} (k : Nat) : Good {nm} ({m} * k) {m} (den{m} k) (num{nm}_{m} k) := by
  rw [den{m}_eq, num{nm}_{m}_eq]
  have h1 := good{nm}_{h} (2 * k)
  have h2 := good{nm}_{h} (2 * k + 1)
  rw [show {h} * (2 * k) = {m} * k by ring] at h1
  rw [show {h} * (2 * k + 1) = {m} * k + {h} by ring] at h2
  exact h1.add (by decide) (by decide) h2''')
out.append('''
/-- `Y ^ 2 ^ h` by squaring. -/
def sq (Y h : Nat) : Nat := Nat.rec Y (fun _ r => Nat.mul r r) h

theorem sq_succ (Y h : Nat) : sq Y (h + 1) = sq Y h * sq Y h := rfl

theorem sq_eq (Y h : Nat) : sq Y h = Y ^ 2 ^ h := by
  induction h with
  | zero => simp [sq]
  | succ h ih => rw [sq_succ, ih, ← Nat.pow_add]; congr 1; omega
''')
for nm,X in (('25',25),('57121',57121)):
    out.append(f'''
/-- `(B, T)` of `16 · 2^h` terms from number `16 · 2^h · k` on. -/
def split{nm} (h : Nat) : Nat → Nat × Nat :=
  Nat.rec (fun k => (den16 k, num{nm}_16 k)) (fun h r k =>
    let l := r (Nat.mul 2 k)
    let q := r (Nat.add (Nat.mul 2 k) 1)
    (Nat.mul l.1 q.1, Nat.add (Nat.mul (Nat.mul l.2 q.1) (sq {X**16} h)) (Nat.mul l.1 q.2))) h

theorem split{nm}_zero (k : Nat) : split{nm} 0 k = (den16 k, num{nm}_16 k) := rfl
theorem split{nm}_succ (h k : Nat) : split{nm} (h + 1) k =
    ((split{nm} h (2 * k)).1 * (split{nm} h (2 * k + 1)).1,
     (split{nm} h (2 * k)).2 * (split{nm} h (2 * k + 1)).1 * sq {X**16} h + (split{nm} h (2 * k)).1 * (split{nm} h (2 * k + 1)).2) := rfl

theorem split{nm}_good (h k : Nat) : Good {nm} (16 * 2 ^ h * k) (16 * 2 ^ h) (split{nm} h k).1 (split{nm} h k).2 := by
  induction h generalizing k with
  | zero => rw [split{nm}_zero]; exact good{nm}_16 k
  | succ h ih =>
    rw [split{nm}_succ]
    have h1 := ih (2 * k)
    have h2 := ih (2 * k + 1)
    rw [show 16 * 2 ^ h * (2 * k) = 16 * 2 ^ (h + 1) * k by rw [pow_succ]; ring] at h1
    rw [show 16 * 2 ^ h * (2 * k + 1) = 16 * 2 ^ (h + 1) * k + 16 * 2 ^ h by rw [pow_succ]; ring] at h2
    have h3 := h1.add (by decide) (Even.mul_right (by decide) _) h2
    rw [sq_eq, show ({X**16} : Nat) = {nm} ^ 16 by norm_num, ← pow_mul]
    rw [show 16 * 2 ^ (h + 1) = 16 * 2 ^ h + 16 * 2 ^ h by rw [pow_succ]; ring] at *
    exact h3''')
out.append('\nend Hashes.Pi')
open(os.path.join(proof, 'PiSplit.lean'), 'w').write('\n'.join(out) + '\n')
