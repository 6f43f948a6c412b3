f=open('/repo/fsb/src/pi.bin','rb').read()
assert len(f)==272384
rows=[f[133*i:133*(i+1)] for i in range(2048)]
o=['''import Verif.Base.Bytes
/-
fsb/src/pi.bin (272384 bytes, `include_bytes!` at fsb/src/lib.rs:19), in 2048 rows of 133 bytes written as hexadecimal numbers, most
significant byte first (generated by tools/gen_fsbpi.py).
-/
namespace Hashes.Fsb
''']
for c in range(16):
    o.append(f'/-- fsb/src/pi.bin, bytes {c*17024}-{c*17024+17023} -/')
    o.append(f'def piRows{c} : List Nat := [')
    o.append(',\n'.join('  0x'+r.hex() for r in rows[128*c:128*c+128])+']\n')
o.append('/-- The rows of fsb/src/pi.bin. -/')
o.append('def piRows : List (List Nat) :=\n  ['+', '.join(f'piRows{c}' for c in range(16))+']\n')
o.append('''/-- `PI`, lib.rs:19 -/
def piBin : Bytes := piRows.flatten.flatMap (beBytes 133)
''')
o.append('end Hashes.Fsb')
open('/verif/lean/Verif/Model/FsbPi.lean','w').write('\n'.join(o)+'\n')
