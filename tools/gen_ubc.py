#!/usr/bin/env python3
"""Parse sha1-checked/src/ubc_check.rs: disturbance vectors and the lines of `ubc_check`."""
import re, sys
src = open('/repo/sha1-checked/src/ubc_check.rs').read()
bits = {m[0]: int(m[1]) for m in re.findall(r'const (DV_\w+): u32 = 1 << (\d+);', src)}
body = src[src.index('pub const fn ubc_check'):]
off = src[:src.index('pub const fn ubc_check')].count('\n') + 1

def dvs():
    out = []
    for m in re.finditer(r'// DV: type=(\d+), K=(\d+), B ?= ?(\d+),?\s*Info \{\s*testt: Testt::T(\d+),\s*maskb: (\d+),\s*dm: \[(.*?)\]', src, re.S):
        dm = [int(x, 0) for x in re.sub(r'//[^\n]*', '', m[6]).replace('\n', ' ').split(',') if x.strip()]
        out.append(dict(type=int(m[1]), K=int(m[2]), B=int(m[3]), testt=int(m[4]), maskb=int(m[5]), dm=dm, line=src[:m.start()].count('\n') + 1))
    return out

# tokens
W = r'w\[(\d+)\]'
def term(s):
    """parse a xor of two (shifted) words -> (i, si, j, sj); shifts positive = right"""
    s = s.replace(' ', '')
    m = re.fullmatch(r'\(?w\[(\d+)\](?:(>>|<<)(\d+)\))?\^\(?w\[(\d+)\](?:(>>|<<)(\d+)\))?', s)
    assert m, s
    sh = lambda d, n: 0 if d is None else (int(n) if d == '>>' else -int(n))
    return (int(m[1]), sh(m[2], m[3]), int(m[4]), sh(m[5], m[6]))
def maskof(s):
    return [bits[x] for x in re.findall(r'DV_\w+', s)]

def strip_paren(s):
    while s.startswith('('):
        d = 0
        for k, c in enumerate(s):
            d += (c == '(') - (c == ')')
            if d == 0: break
        if k == len(s) - 1: s = s[1:-1]
        else: break
    return s

def lines():
    """list of (line, guardmask or None, kind, ...)"""
    text = body
    head, tail = text.split('    if mask != 0 {\n', 1)
    out = []
    pos = 0
    stm = re.compile(r'(?:if mask & \(([^{]*?)\)\s*!= 0\s*\{\s*)?mask &=\s*([^;{}]*?)\s*\|\s*!\(([^;{}]*?)\)\s*[;}]', re.S)
    for m in stm.finditer(head):
        ln = off + head[:m.start()].count('\n')
        guard = maskof(m[1]) if m[1] else None
        M = maskof(m[3])
        e = re.sub(r'\s+', '', m[2])
        r = re.fullmatch(r'\(\((.*)\)&1\)\.wrapping_sub\(1\)', e)
        if r:  # eq, low-bit
            x = r[1]
            q = re.fullmatch(r'\((w\[\d+\]\^w\[\d+\])\)>>(\d+)', x)
            if q: t, outer = term(q[1]), int(q[2])
            else: t, outer = term(x), 0
            out.append((ln, guard, 'sub1', t, outer, 0, M)); continue
        r = re.fullmatch(r'\(\((.*)\)&\(1<<(\d+)\)\)\.wrapping_sub\(\(?1\)?<<(\d+)\)', e)
        if r:
            assert r[2] == r[3]
            out.append((ln, guard, 'sub1', term(r[1]), 0, int(r[2]), M)); continue
        r = re.fullmatch(r'\(0u32\)\.wrapping_sub\(\(\((w\[\d+\]\^w\[\d+\])\)>>(\d+)\)&1\)', e)
        if r:
            out.append((ln, guard, 'neg', term(r[1]), int(r[2]), 0, M)); continue
        r = re.fullmatch(r'\(0u32\)\.wrapping_sub\(\((.*)\)&\(1<<(\d+)\)\)', e)
        if r:
            out.append((ln, guard, 'neg', term(r[1]), 0, int(r[2]), M)); continue
        raise Exception(e)
    n = head.count('mask &=')
    assert n == len(out), (n, len(out))
    fin = []
    stm = re.compile(r'if mask & (DV_\w+) != 0\s*(?:\{\s*mask &= ([^;{}]*?) \| !(DV_\w+)\s*\}|&& \(([^{]*)\)\s*\{\s*mask &= !(DV_\w+)\s*\})', re.S)
    base = off + head.count('\n') + 1
    for m in stm.finditer(tail):
        ln = base + tail[:m.start()].count('\n')
        dv = bits[m[1]]
        if m[2]:
            assert m[3] == m[1]
            e = re.sub(r'\s+', '', m[2])
            r = re.fullmatch(r'(!?)\(\((w\[\d+\]\^w\[\d+\])\)(<<|>>)(\d+)\)', e)
            assert r, e
            out2 = (ln, dv, 'shift', bool(r[1]), term(r[2]), int(r[4]) if r[3] == '>>' else -int(r[4]))
            fin.append(out2)
        else:
            assert m[5] == m[1]
            cs = []
            for c in re.sub(r'\s+', '', m[4]).split('||'):
                r = re.fullmatch(r'\((.*)\)&\(1<<(\d+)\)(==|!=)0', c)
                cs.append((term(r[1]), int(r[2]), r[3] == '!='))
            fin.append((ln, dv, 'test', cs))
    assert tail.count('mask &=') == len(fin), (tail.count('mask &='), len(fin))
    return out, fin

def conds():
    """DV bit -> list of (i, bit, j, bit, parity) that must hold"""
    C = {k: [] for k in range(32)}
    a, b = lines()
    for ln, guard, kind, (i, si, j, sj), outer, s, M in a:
        p = s + outer
        for d in M: C[d].append((i, p + si, j, p + sj, 0 if kind == 'sub1' and False else (1 if kind == 'neg' else 0)))
    for f in b:
        if f[2] == 'shift':
            _, dv, _, neg, (i, si, j, sj), sh = f
            C[dv].append((i, dv + sh + si, j, dv + sh + sj, 0 if neg else 1))
        else:
            for (i, si, j, sj), s, ne in f[3]:
                C[f[1]].append((i, s + si, j, s + sj, 0 if ne else 1))
    return C
def lean_model():
    o = ['import Verif.Base.Vec', '/-', 'Generated by tools/gen_ubc.py from /repo/sha1-checked/src/ubc_check.rs: the disturbance vectors `SHA1_DVS`',
         '(:60-597) and the statements of `ubc_check` (:602-1076), one entry per statement in source order.', '-/',
         'namespace Hashes.Sha1Checked', '',
         '/-- `Testt`, ubc_check.rs:53-57. -/', 'inductive Testt', '  | T58', '  | T65', 'deriving DecidableEq, Repr', '',
         '/-- `Info`, ubc_check.rs:41-50. -/', 'structure Info where', '  testt : Testt', '  maskb : Nat', '  dm : List W32', 'deriving DecidableEq', '']
    names = []
    for d in dvs():
        n = f"dv{'I' * d['type']}_{d['K']}_{d['B']}"
        names.append(n)
        o.append(f"/-- DV type={d['type']}, K={d['K']}, B={d['B']}: ubc_check.rs:{d['line']} -/")
        o.append(f"def {n} : Info := ⟨.T{d['testt']}, {d['maskb']}, [")
        for i in range(0, 80, 8):
            o.append('  ' + ', '.join('0x%x' % x for x in d['dm'][i:i+8]) + (',' if i < 72 else ']⟩'))
        o.append('')
    o.append('/-- `SHA1_DVS`, ubc_check.rs:60-597. -/')
    o.append('def SHA1_DVS : List Info := [')
    for i in range(0, 32, 6): o.append('  ' + ', '.join(names[i:i+6]) + (',' if i + 6 < 32 else ']'))
    o += ['', '/-- A shift applied to a word. -/', 'inductive Sh', '  | n', '  | r (k : Nat)', '  | l (k : Nat)', 'deriving DecidableEq', '',
          '/-- `(w[i] shifted) ^ (w[j] shifted)`. -/', 'structure Pair where', '  i : Nat', '  si : Sh', '  j : Nat', '  sj : Sh', 'deriving DecidableEq', '',
          '/-- The statement shapes of `ubc_check`; `dvs` lists the bit numbers or-ed together in the source. -/', 'inductive Stmt',
          '  /-- `mask &= ((x >> o) & (1 << s)).wrapping_sub(1 << s) | !dvs`, under `if mask & dvs != 0` when `guard`. -/',
          '  | sub (guard : Bool) (x : Pair) (o s : Nat) (dvs : List Nat)',
          '  /-- `mask &= 0.wrapping_sub((x >> o) & (1 << s)) | !dvs`, under `if mask & dvs != 0` when `guard`. -/',
          '  | neg (guard : Bool) (x : Pair) (o s : Nat) (dvs : List Nat)',
          '  /-- `if mask & dv != 0 { mask &= (x << k) | !dv }` -/', '  | shl (dv : Nat) (x : Pair) (k : Nat)',
          '  /-- `if mask & dv != 0 { mask &= !(x >> k) | !dv }` -/', '  | notShr (dv : Nat) (x : Pair) (k : Nat)',
          '  /-- `if mask & dv != 0 && (x & (1 << s) == 0 || y & (1 << t) != 0 || …) { mask &= !dv }`; the flag is true for `!= 0`. -/',
          '  | test (dv : Nat) (cs : List (Pair × Nat × Bool))', 'deriving DecidableEq', '']
    sh = lambda k: '.n' if k == 0 else f'.r {k}' if k > 0 else f'.l {-k}'
    pr = lambda t: f'⟨{t[0]}, {sh(t[1])}, {t[2]}, {sh(t[3])}⟩'
    a, b = lines()
    o.append('/-- The unconditional and guarded statements of `ubc_check` before `if mask != 0`, ubc_check.rs:604-%d. -/' % (b[0][0] - 2))
    o.append('def ubcStmts : List Stmt := [')
    for n, (ln, guard, kind, t, outer, s, M) in enumerate(a):
        if guard is not None: assert sorted(guard) == sorted(M), (ln, guard, M)
        k = 'sub' if kind == 'sub1' else 'neg'
        o.append(f"  .{k} {'true' if guard is not None else 'false'} {pr(t)} {outer} {s} {M}{',' if n + 1 < len(a) else ']'} -- :{ln}")
    o.append('')
    o.append('/-- The statements inside the final `if mask != 0`, ubc_check.rs:%d-1074. -/' % b[0][0])
    o.append('def ubcFinal : List Stmt := [')
    for n, f in enumerate(b):
        e = ',' if n + 1 < len(b) else ']'
        if f[2] == 'shift':
            neg, t, k = f[3], f[4], f[5]
            if neg:
                assert k > 0
                o.append(f'  .notShr {f[1]} {pr(t)} {k}{e} -- :{f[0]}')
            else:
                assert k < 0
                o.append(f'  .shl {f[1]} {pr(t)} {-k}{e} -- :{f[0]}')
        else:
            cs = ', '.join(f"({pr(t)}, {s}, {'true' if ne else 'false'})" for t, s, ne in f[3])
            o.append(f'  .test {f[1]} [{cs}]{e} -- :{f[0]}')
    o += ['', 'end Hashes.Sha1Checked', '']
    return '\n'.join(o)

def lean_spec():
    C = conds()
    o = ['import Verif.Base.Bytes', '/-', 'Unavoidable bit conditions of the 32 disturbance vectors, one list per vector (M. Stevens, D. Shumow,',
         '"Speeding up detection of SHA-1 collision attacks using unavoidable attack conditions"): an entry `(i, a, j, b, p)`',
         'says that bit `a` of expanded message word `i` xor bit `b` of word `j` must be `p`.', 'Formatted by tools/gen_ubc.py.', '-/',
         'namespace Hashes.Spec.Ubc', '', '/-- (word, bit, word, bit, parity) -/', 'abbrev Cond := Nat × Nat × Nat × Nat × Bool', '',
         '/-- Conditions of each vector, listed by vector number. -/', 'def conds : List (List Cond) := [']
    for d in dvs():
        cs = sorted(min((i, x, j, y, p), (j, y, i, x, p)) for i, x, j, y, p in C[d['maskb']])
        o.append(f"  -- {'I' * d['type']}({d['K']},{d['B']})")
        o.append('  [' + ', '.join(f"({i}, {x}, {j}, {y}, {'true' if p else 'false'})" for i, x, j, y, p in cs) + (']' if d['maskb'] == 31 else '],'))
    o[-1] += ']'
    o += ['', '/-- The condition holds of the expanded message `w`. -/', 'def holds (w : Nat → W32) (c : Cond) : Bool :=',
          '  ((w c.1).getLsbD c.2.1 ^^ (w c.2.2.1).getLsbD c.2.2.2.1) == c.2.2.2.2', '', 'end Hashes.Spec.Ubc', '']
    return '\n'.join(o)

if __name__ == '__main__':
    open('/verif/lean/Verif/Model/Sha1Ubc.lean', 'w').write(lean_model())
    open('/verif/lean/Verif/Spec/Ubc.lean', 'w').write(lean_spec())
