#!/usr/bin/env python3
"""Inverse S-boxes and inverse diffusion matrices for lean/Verif/Proof/Perm/Tables.lean (witnesses for C62; Lean checks them)."""
import os, re
root = os.path.join(os.path.dirname(os.path.abspath(__file__)), '..', 'lean', 'Verif')

def gmul(poly, a, b):
    r = 0
    for i in range(8):
        if b >> i & 1:
            r ^= a << i
    for i in range(14, 7, -1):
        if r >> i & 1:
            r ^= poly << (i - 8)
    return r

def inv_matrix(poly, m):
    n = len(m)
    a = [row[:] + [int(i == j) for j in range(n)] for i, row in enumerate(m)]
    ginv = {x: y for x in range(1, 256) for y in range(1, 256) if gmul(poly, x, y) == 1}
    for c in range(n):
        p = next(r for r in range(c, n) if a[r][c])
        a[c], a[p] = a[p], a[c]
        k = ginv[a[c][c]]
        a[c] = [gmul(poly, k, x) for x in a[c]]
        for r in range(n):
            if r != c and a[r][c]:
                k = a[r][c]
                a[r] = [x ^ gmul(poly, k, y) for x, y in zip(a[r], a[c])]
    return [row[n:] for row in a]

def circ(c, down):
    """entry (i, k) is c[(i-k) mod 8] if down else c[(k-i) mod 8]"""
    return [[c[(i - k) % 8] if down else c[(k - i) % 8] for k in range(8)] for i in range(8)]

def invert(s):
    t = [0] * 256
    for i, x in enumerate(s):
        t[x] = i
    return t

# S-boxes
E = [0x1, 0xB, 0x9, 0xC, 0xD, 0x6, 0xF, 0x3, 0xE, 0x8, 0x7, 0x4, 0xA, 0x2, 0x5, 0x0]
R = [0x7, 0xC, 0xB, 0xD, 0xE, 0x4, 0x9, 0xF, 0x6, 0x3, 0x8, 0xA, 0x2, 0x5, 0x1, 0x0]
def whirl(x):
    u, v = E[x >> 4], E.index(x & 15)
    r = R[u ^ v]
    return 16 * E[u ^ r] + E.index(v ^ r)
def aes(x):
    b = next((y for y in range(256) if gmul(0x11B, x, y) == 1), 0)
    rot = lambda k: ((b << k) | (b >> (8 - k))) & 255
    return b ^ rot(1) ^ rot(2) ^ rot(3) ^ rot(4) ^ 0x63
def nats(name, file):
    s = open(os.path.join(root, file)).read()
    m = re.search(r'def ' + name + r'\b[^\[]*\[(.*?)\]', s, re.S)
    return [int(x, 0) for x in re.findall(r'0x[0-9a-fA-F]+|\d+', m.group(1))]
import glob
def find(name):
    for f in glob.glob(os.path.join(root, 'Model', '**', '*.lean'), recursive=True):
        if re.search(r'def ' + name + r'\b', open(f).read()):
            yield os.path.relpath(f, root)
pn = nats('pNat', next(find('pNat')))
kup = [nats('sboxNat%d' % i, next(find('sboxNat%d' % i))) for i in range(4)]

tables = [('whirlpoolInv', 'Inverse of Whirlpool\'s S-box', invert([whirl(x) for x in range(256)])),
          ('aesInv', 'Inverse of the AES S-box', invert([aes(x) for x in range(256)])),
          ('streebogInv', 'Inverse of Streebog\'s substitution', invert(pn))] + \
         [('kupynaInv%d' % i, 'Inverse of Kupyna\'s S-box %d' % i, invert(kup[i])) for i in range(4)]
M = [[0x71, 0x05, 0x09, 0xB9, 0x61, 0xA2, 0x27, 0x0E], [0x04, 0x88, 0x5B, 0xB2, 0xE4, 0x36, 0x5F, 0x65],
     [0x5F, 0xCB, 0xAD, 0x0F, 0xBA, 0x2C, 0x04, 0xA5], [0xE5, 0x01, 0x54, 0xBA, 0x0F, 0x11, 0x2A, 0x76],
     [0xD4, 0x81, 0x1C, 0xFA, 0x39, 0x5E, 0x15, 0x24], [0x05, 0x71, 0x5E, 0x66, 0x17, 0x1C, 0xD0, 0x02],
     [0x2D, 0xF1, 0xE7, 0x28, 0x55, 0xA0, 0x4C, 0x9A], [0x0E, 0x02, 0xF6, 0x8A, 0x15, 0x9D, 0x39, 0x71]]
wi = [row[0] for row in inv_matrix(0x11D, circ([1, 1, 4, 1, 8, 5, 2, 9], True))]
gi = inv_matrix(0x11B, circ([2, 2, 3, 4, 5, 3, 5, 7], False))[0]
ki = inv_matrix(0x11D, circ([1, 1, 5, 1, 8, 6, 7, 4], False))[0]
si = inv_matrix(0x171, M)

out = ['import Verif.Base.Bytes', '/- Witnesses for C62 (inverse S-boxes and inverse diffusion matrices), generated by tools/gen_perm_tables.py. Nothing is',
       'assumed about them: `Proof/Perm/Grid.lean` checks that they are inverses. Entry `y` of an inverse S-box is byte `y` of the number. -/', 'namespace Hashes.Perm', '']
for n, d, t in tables:
    out.append('/-- %s. -/' % d)
    out.append('def %s : Nat :=' % n)
    out.append('  0x' + ''.join('%02x' % x for x in reversed(t)))
    out.append('')
for n, d, t in [('whirlpoolMix', 'Whirlpool', wi), ('groestlMix', 'Groestl', gi), ('kupynaMix', 'Kupyna', ki)]:
    out.append('/-- First line of the inverse of the circulant matrix of %s. -/' % d)
    out.append('def %s : List Byte := [%s]' % (n, ', '.join('0x%02x' % x for x in t)))
    out.append('')
out.append('/-- Inverse of Streebog\'s matrix. -/')
out.append('def streebogMix : List (List Byte) := [')
out.append(',\n'.join('  [%s]' % ', '.join('0x%02x' % x for x in row) for row in si) + ']')
out += ['', 'end Hashes.Perm', '']
open(os.path.join(root, 'Proof', 'Perm', 'Tables.lean'), 'w').write('\n'.join(out))
