import sys,subprocess
sys.path.insert(0,'/verif/tools')
from blobby import parse
for b in [160,224,256,384,512]:
    l=parse(open(f'/repo/fsb/tests/data/fsb{b}.blb','rb').read())
    pairs=[(l[i],l[i+1]) for i in range(0,len(l),2)]
    open('/tmp/kat.txt','w').write('\n'.join((a.hex() or '-')+' '+c.hex() for a,c in pairs))
    src=f'''import Verif.Model.Fsb
import Verif.Spec.Fsb
open Hashes
def hexv (c : Char) : Nat := if c.isDigit then c.toNat - 48 else c.toNat - 87
def unhex : List Char → Bytes
  | a :: b :: r => BitVec.ofNat 8 (16 * hexv a + hexv b) :: unhex r
  | _ => []
def main : IO Unit := do
  let pi ← IO.FS.readBinFile "/repo/fsb/src/pi.bin"
  let PI : Bytes := pi.toList.map fun b => BitVec.ofNat 8 b.toNat
  let t ← IO.FS.lines "/tmp/kat.txt"
  let mut ok := 0
  let mut bad := 0
  for l in t do
    match l.splitOn " " with
    | [a, b] => 
      let m := unhex a.toList
      let c := Fsb.core Fsb.fsb{b} PI
      if m.length ≤ 1000 then
       if c.finish (c.update (c.update c.new (m.take 3)) (m.drop 3)) == some (unhex b.toList) then ok := ok + 1 else bad := bad + 1
    | _ => pure ()
  IO.println s!"ok {{ok}} bad {{bad}}"
#eval main
'''
    open('/tmp/katf.lean','w').write(src)
    r=subprocess.run(['lake','env','lean','/tmp/katf.lean'],cwd='/verif/lean',capture_output=True,text=True)
    print(b,(r.stdout+r.stderr)[:300],flush=True)
