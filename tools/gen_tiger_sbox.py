#!/usr/bin/env python3
"""Writes lean/Verif/Proof/TigerGen.lean: the states after each pass of the Tiger S-box generator, obtained by evaluating
Spec.Tiger.Gen in Lean, and the kernel-checked steps between them."""
import subprocess, sys
sys.set_int_max_str_digits(0)
lean = '/verif/lean'
src = '''import Verif.Spec.Tiger
open Hashes.Spec.Tiger.Gen
def iter : Nat → St
  | 0 => start
  | n + 1 => genPass (ks 0) (ks 1) (ks 2) (iter n)
def shw (s : St) : String := s!"{s.t.t0} {s.t.t1} {s.t.t2} {s.t.t3} {s.r.a} {s.r.b} {s.r.c} {s.abc}"
#eval do
  for i in [1,2,3,4,5] do IO.println (shw (iter i))
#eval IO.println s!"{ks 0} {ks 1} {ks 2}"
'''
open('/tmp/tg.lean', 'w').write(src)
out = subprocess.run(['lake', 'env', 'lean', '/tmp/tg.lean'], cwd=lean, capture_output=True, text=True, check=True).stdout
lines = out.strip().split('\n')
o = ['import Verif.Spec.Tiger',
     '/- Generated by tools/gen_tiger_sbox.py. States of the S-box generator after each pass; every step is checked by the',
     '   kernel (`decide +kernel` on closed terms, one pass per theorem to bound memory). -/',
     'namespace Hashes.Spec.Tiger.Gen', '', 'set_option maxRecDepth 100000', 'set_option Elab.async false', '']
for i, l in enumerate(lines[:5], 1):
    v = [hex(int(x)) for x in l.split()]
    o += [f'def st{i} : St := ⟨⟨', ',\n'.join(v[:4]) + '⟩,', f'  ⟨{v[4]}, {v[5]}, {v[6]}⟩, {v[7]}⟩', '']
ksl = lines[5]
parts = [p.strip(' []') for p in ksl.split('] [')]
for j, p in enumerate(parts):
    o += [f'def kl{j} : List Nat := [' + ', '.join(hex(int(x)) for x in p.split(',')) + ']', '',
          f'theorem ks{j} : ks {j} = kl{j} := by decide +kernel', '']
for i in range(1, 6):
    prev = 'start' if i == 1 else f'st{i-1}'
    o += [f'theorem pass{i} : genPass kl0 kl1 kl2 {prev} = st{i} := by decide +kernel', '']
o += ['theorem boxes_eq : boxes = st5.t := by',
      '  unfold boxes',
      '  rw [ks0, ks1, ks2, show List.range 5 = [0, 1, 2, 3, 4] from rfl]',
      '  simp only [List.foldl_cons, List.foldl_nil, pass1, pass2, pass3, pass4, pass5]', '',
      'end Hashes.Spec.Tiger.Gen', '']
open(lean + '/Verif/Proof/TigerGen.lean', 'w').write('\n'.join(o))
