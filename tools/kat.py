#!/usr/bin/env python3
"""Fidelity check of the executable model (not part of any proof): evaluates the Lean model on the known-answer files
of /repo/*/tests/data and compares. Usage: kat.py [name-substring ...]"""
import subprocess, sys, os
sys.path.insert(0, os.path.dirname(__file__))
from blobby import parse
def fin(c): return f'fun m _ => let c := {c}; c.finish (c.update (c.update c.new (m.take 3)) (m.drop 3))'
def xof(c, x): return f'fun m n => let c := {c}; let x := {x}; (x.read (x.reader (c.finish (c.update (c.update c.new (m.take 3)) (m.drop 3)))) n).1'
# file, imports, Lean function `message → output length → digest`
K = [
 ('md2/tests/data/md2.blb', 'Md2', fin('Hashes.Md2.md2')),
 ('md4/tests/data/md4.blb', 'Md4', fin('Hashes.Md4.md4')),
 ('md5/tests/data/md5.blb', 'Md5', fin('Hashes.Md5.md5')),
 ('ripemd/tests/data/ripemd128.blb', 'Ripemd', fin('Hashes.Ripemd.ripemd128')),
 ('ripemd/tests/data/ripemd160.blb', 'Ripemd', fin('Hashes.Ripemd.ripemd160')),
 ('ripemd/tests/data/ripemd256.blb', 'Ripemd', fin('Hashes.Ripemd.ripemd256')),
 ('ripemd/tests/data/ripemd320.blb', 'Ripemd', fin('Hashes.Ripemd.ripemd320')),
 ('sha1/tests/data/sha1.blb', 'Sha1', fin('Hashes.Sha1.sha1')),
 ('sha2/tests/data/sha224.blb', 'Sha256', fin('Hashes.Sha256.sha224')),
 ('sha2/tests/data/sha256.blb', 'Sha256', fin('Hashes.Sha256.sha256')),
 ('sha2/tests/data/sha384.blb', 'Sha512', fin('Hashes.Sha512.sha384')),
 ('sha2/tests/data/sha512.blb', 'Sha512', fin('Hashes.Sha512.sha512')),
 ('sha2/tests/data/sha512_224.blb', 'Sha512', fin('Hashes.Sha512.sha512_224')),
 ('sha2/tests/data/sha512_256.blb', 'Sha512', fin('Hashes.Sha512.sha512_256')),
 ('sm3/tests/data/sm3.blb', 'Sm3', fin('Hashes.Sm3.sm3')),
 ('tiger/tests/data/tiger.blb', 'Tiger', fin('Hashes.Tiger.tiger')),
 ('tiger/tests/data/tiger2.blb', 'Tiger', fin('Hashes.Tiger.tiger2')),
]
exec(open(os.path.join(os.path.dirname(__file__), 'kat_more.py')).read())
sel = sys.argv[1:]
bad = 0
for f, mod, fn in K:
    if sel and not any(s in f for s in sel): continue
    if f.endswith('.txt'):
        t = [x.split('=')[1].strip() for x in open('/repo/' + f) if x.startswith(('Msg', 'MD'))]
        l = [bytes.fromhex(x) for x in t]
    else:
        l = parse(open('/repo/' + f, 'rb').read())
    lim = 40
    pairs = [(l[i], l[i+1]) for i in range(0, len(l), 2) if len(l[i]) <= 5000][:lim]
    with open('/tmp/kat.txt', 'w') as h:
        for a, b in pairs: h.write((a.hex() or '-') + ' ' + b.hex() + '\n')
    src = f'''import Verif.Model.{mod}
open Hashes
def hexv (c : Char) : Nat := if c.isDigit then c.toNat - 48 else c.toNat - 87
def unhex : List Char → Bytes
  | a :: b :: r => BitVec.ofNat 8 (16 * hexv a + hexv b) :: unhex r
  | _ => []
def fn : Bytes → Nat → Bytes := {fn}
def main : IO Unit := do
  let t ← IO.FS.lines "/tmp/kat.txt"
  let mut ok := 0
  let mut bad := 0
  for l in t do
    match l.splitOn " " with
    | [a, b] => if fn (unhex a.toList) (b.length / 2) == unhex b.toList then ok := ok + 1 else bad := bad + 1
    | _ => pure ()
  IO.println s!"ok {{ok}} bad {{bad}}"
#eval main
'''
    open('/tmp/kat.lean', 'w').write(src)
    r = subprocess.run(['lake', 'env', 'lean', '/tmp/kat.lean'], cwd='/verif/lean', capture_output=True, text=True)
    print(f, (r.stdout + r.stderr).strip()[:200], flush=True)
