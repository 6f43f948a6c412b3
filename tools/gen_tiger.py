#!/usr/bin/env python3
"""Writes lean/Verif/Model/TigerTables.lean from /repo/tiger/src/tables.bin."""
import struct
v = struct.unpack('<1024Q', open('/repo/tiger/src/tables.bin', 'rb').read())
o = ['import Verif.Base.Bytes',
     '/- Generated by tools/gen_tiger.py from /repo/tiger/src/tables.bin (`TABLES`, tiger/src/tables.rs:4,',
     '   read as little-endian u64). -/', 'namespace Hashes.Tiger', '']
for t in range(4):
    o.append(f'/-- `TABLES[{t}]` -/')
    o.append(f'def tableNat{t} : List Nat := [')
    rows = v[256*t:256*t+256]
    for i in range(0, 256, 4):
        o.append('  ' + ', '.join(f'0x{x:016x}' for x in rows[i:i+4]) + (',' if i < 252 else ']'))
    o.append('')
o += ['/-- `TABLES`, tables.rs:4 -/',
      'def TABLES : List (List W64) := [tableNat0, tableNat1, tableNat2, tableNat3].map (List.map (BitVec.ofNat 64))',
      '', 'end Hashes.Tiger', '']
open('/verif/lean/Verif/Model/TigerTables.lean', 'w').write('\n'.join(o))
