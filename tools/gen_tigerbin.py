#!/usr/bin/env python3
"""Writes lean/Verif/Model/TigerBin.lean: the bytes of /repo/tiger/src/tables.bin, 32 to a line, and the two readings of
tiger/src/tables.rs."""
b = open('/repo/tiger/src/tables.bin', 'rb').read()
assert len(b) == 8192
o = ['import Verif.Model.Endian', 'import Verif.Model.Tiger',
     '/- The file /repo/tiger/src/tables.bin and the two versions of `TABLES`, /repo/tiger/src/tables.rs. The hexadecimal',
     '   rows are generated by tools/gen_tigerbin.py: 32 consecutive bytes of the file each. -/', 'namespace Hashes.Tiger', '']
o.append('/-- Rows of tables.bin. -/')
for t in range(4):
    if t: o.append('/-- Rows of tables.bin. -/')
    o.append(f'def binRows{t} : List Nat := [')
    for i in range(64):
        r = b[2048*t+32*i:2048*t+32*i+32]
        o.append('  0x' + r.hex() + (',' if i < 63 else ']'))
    o.append('')
o.append('''/-- `include_bytes!("tables.bin")` -/
def tablesBin : Bytes := [binRows0, binRows1, binRows2, binRows3].flatten.flatMap (beBytes 32)

/-- `transmute_copy` of a file of 8192 bytes to `[[u64; 256]; 4]`, tables.rs:4, :8. -/
def transmuteTables (e : Endian) (file : Bytes) : List (List W64) :=
  chunks 256 ((chunks 8 file).map fun c => BitVec.ofNat 64 (ofNe e c))

/-- `TABLES`: tables.rs:3-4 on a little-endian target, tables.rs:6-19 (every word byte-swapped) on a big-endian one. -/
def tablesOf (e : Endian) (file : Bytes) : List (List W64) :=
  match e with
  | .little => transmuteTables .little file
  | .big => (transmuteTables .big file).map (List.map swapBytes)

/-- `Tiger` (`ver2 = false`) and `Tiger2` (`ver2 = true`) on a target, lib.rs:47, :49. -/
def coreOn (e : Endian) (ver2 : Bool) : Core State Bytes := core (tablesOf e tablesBin) ver2

end Hashes.Tiger
''')
open('/verif/lean/Verif/Model/TigerBin.lean', 'w').write('\n'.join(o))
