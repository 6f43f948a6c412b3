#!/usr/bin/env python3
"""Transcribes numeric constant tables of /repo into Lean (lists of Nat)."""
import re
def arrays(path, name):
    """all integer literals of `const name: … = …;`, in order"""
    s = open(path).read()
    m = re.search(r'(?:const|static)\s+' + name + r'\s*:[^=]*=\s*(.*?);\n', s, re.S)
    body = re.sub(r'//[^\n]*', '', m.group(1))
    return [int(x.replace('_', ''), 0) for x in re.findall(r'0x[0-9a-fA-F_]+|\b\d[\d_]*\b', body)]
def fmt(v, width, per):
    rows = []
    for i in range(0, len(v), per):
        rows.append('  ' + ', '.join(f'0x{x:0{width}x}' for x in v[i:i+per]))
    return '[\n' + ',\n'.join(rows) + ']'
def write(mod, ns, comment, defs):
    o = ['import Verif.Base.Bytes', f'/- Generated by tools/gen_tables.py: {comment} -/', f'namespace Hashes.{ns}', '']
    for doc, name, v, width, per in defs:
        o += [f'/-- {doc} -/', f'def {name} : List Nat := ' + fmt(v, width, per), '']
    o += [f'end Hashes.{ns}', '']
    open(f'/verif/lean/Verif/Model/{mod}.lean', 'w').write('\n'.join(o))
R = '/repo/'
w = R + 'whirlpool/src/consts.rs'
write('WhirlpoolTables', 'Whirlpool', '/repo/whirlpool/src/consts.rs',
  [('`RC`, consts.rs:5-16', 'rcNat', arrays(w, 'RC'), 16, 4)] +
  [(f'`C{i}`', f'tabNat{i}', arrays(w, f'C{i}'), 16, 6) for i in range(8)])
g = arrays(R + 'groestl/src/table.rs', 'TABLE')
assert len(g) == 2048
write('GroestlTables', 'Groestl', '/repo/groestl/src/table.rs',
  [(f'`TABLE[{i}]`, table.rs:{3+i}', f'tabNat{i}', g[256*i:256*i+256], 16, 6) for i in range(8)])
k = arrays(R + 'kupyna/src/consts.rs', 'SBOXES')
assert len(k) == 1024
mds = arrays(R + 'kupyna/src/consts.rs', 'MDS_MATRIX')
write('KupynaTables', 'Kupyna', '/repo/kupyna/src/consts.rs',
  [('`MDS_MATRIX`, consts.rs:1-10, row after row', 'mdsNat', mds, 2, 8)] +
  [(f'`SBOXES[{i}]`, consts.rs:12-93', f'sboxNat{i}', k[256*i:256*i+256], 2, 16) for i in range(4)])
s = R + 'streebog/src/consts.rs'
c = arrays(s, 'C')
assert len(c) == 768 and len(arrays(s, 'P')) == 256 and len(arrays(s, 'A')) == 64
write('StreebogTables', 'Streebog', '/repo/streebog/src/consts.rs',
  [('`A`, consts.rs:9-74', 'aNat', arrays(s, 'A'), 16, 4), ('`P`, consts.rs:77-91', 'pNat', arrays(s, 'P'), 2, 16)] +
  [(f'`C[{i}]`, consts.rs:94-179', f'cNat{i}', c[64*i:64*i+64], 2, 16) for i in range(12)])
