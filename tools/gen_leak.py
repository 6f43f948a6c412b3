#!/usr/bin/env python3
"""Write Verif/Leak/X.lean from Verif/Checked/X.lean: the operations of Base/Rust.lean become those of Base/Leak.lean, `Option` becomes
`Leak`, `if` becomes `branch`, and the definitions get the suffix `L` instead of `C`.  Prints nothing; the results are committed."""
import os, re
root = os.path.join(os.path.dirname(os.path.abspath(__file__)), "..", "lean", "Verif")
PTR = [(".loadAt", ".loadAtL"), (".storeAt", ".storeAtL"), (".loadSlice", ".loadSliceL"), (".storeSlice", ".storeSliceL"), (".loadElem", ".loadElemL"),
    (".loadu", ".loaduL"), (".storeu", ".storeuL"), ("Raw.add ", "Raw.addL "), ("Raw.deref ", "Raw.derefL ")]
# file -> (definitions to leave out, extra replacements)
FILES = {
    "Sm3": ([], []),
    "Shabal": (["swapBCC"], []),
    "Blake2": (["twoWordsC", "newWithParamsC", "keyBlockC", "keyBufferC", "newWithSaltAndPersonalC", "newFromSliceC", "paddedC"],
        [("if c.bytes = 64 then pure 0\n  else if c.bytes = 32 then do\n    let y ← shr t 32\n    pure (y.setWidth w)\n  else panic",
          "branch (c.bytes = 64) (pure 0) (branch (c.bytes = 32) (do\n    let y ← shr t 32\n    pure (y.setWidth w)) panic)"),
         ("if c.bytes = 64 then do\n    let v ← sigmaRoundL c m 0 v\n    sigmaRoundL c m 1 v\n  else pure v",
          "branch (c.bytes = 64) (do\n    let v ← sigmaRoundL c m 0 v\n    sigmaRoundL c m 1 v) (pure v)")]),
    "Keccak": (["leftEncodeC", "bitsC", "feedC", "CShake.newC", "chunksMut8"], []),
    "Skein": (["chunksMut"], []),
    "Ascon": ([], [("if block.length > 0 then do", "branch (block.length > 0) (do"),
        ("x0 := s.x0 ^^^ y }\n  else pure s", "x0 := s.x0 ^^^ y }) (pure s)"),
        ("if _h : block.length > 8 then do\n", "if _h : block.length > 8 then do\n    let _ ← emit (.branch true) (some ())\n"),
        ("else copy block 0 8 (leBytes 8 s.x0.toNat)", "else do\n    let _ ← emit (.branch false) (some ())\n    copy block 0 8 (leBytes 8 s.x0.toNat)")]),
    "Belt": ([], [("if buffer.pos ≠ 0 then compressBlockL E st (buffer.padWithZeros 32).1 else pure st",
        "branch (buffer.pos ≠ 0) (compressBlockL E st (buffer.padWithZeros 32).1) (pure st)")]),
    "Md2": ([], []),
    "Gost94": ([], [("adcAt", "adcAtL"), ("xorAt", "xorAtL"), ("if buffer.pos ≠ 0 then do\n", "branch (buffer.pos ≠ 0) (do\n"),
        (".1\n  else pure s", ".1) (pure s)")]),
    "Groestl": ([], []),
    "Kupyna": (["MDS_MATRIX", "lengthC"], [("at2", "at2L"), ("upd2", "upd2L"), ("incI32", "incI32L"), ("addShift", "addShiftL"), ("nextShift", "nextShiftL"),
        ("let r := if s.2.1 &&& 1 = 1 then s.2.2 ^^^ s.1 else s.2.2", "let r ← branch (s.2.1 &&& 1 = 1) (pure (s.2.2 ^^^ s.1)) (pure s.2.2)"),
        ("let x := if hbit = 1 then x ^^^ 0x1d else x", "let x ← branch (hbit = 1) (pure (x ^^^ 0x1d)) (pure x)"),
        ("if s + 1 < 2 ^ 31 then some (s + 1) else none", "seen (Kupyna.incI32 s)"),
        ("\n  let u := (s % 2 ^ 64).toNat\n  if col + u < 2 ^ 64 then some (col + u) else none", " seen (Kupyna.addShift col s)"),
        ("if i = (← usub 8 1) then pure (g.lastShift : Int) else incI32L s", "branch (i = (← usub 8 1)) (pure (g.lastShift : Int)) (incI32L s)")]),
    "Streebog": ([], []),
    "Tiger": ([], []),
    "Whirlpool": ([], [("adcAt", "adcAtL"), ("if i = 0 then idx RC r else pure 0", "branch (i = 0) (idx RC r) (pure 0)")]),
    "Sha1Ptr": (["stateObj"], PTR),
    "Sha2Ptr": (["stateObj", "kObj"], PTR),
    "Sha2Simd": (["tableObj"], PTR + [("Option", "Leak"), ("if i < n then pure (a.get i) else panic", "Leak.emit (.index i) (Sha2Simd.idxA a i)"),
        ("if i < n then pure (a.set i v) else panic", "Leak.emit (.index i) (Sha2Simd.updA a i v)"),
        ("idxA", "idxAL"), ("updA", "updAL"), ("all8", "all8L"), ("all4", "all4L"), ("loadFrom", "loadFromL"),
        ("if n % 2 ≠ 0 then do\n    Leak.check (0 < n)", "Leak.branch (n % 2 ≠ 0) (do\n    Leak.check (0 < n)"),
        ("pure (s, 1)\n  else pure (state, 0)", "pure (s, 1)) (pure (state, 0))")]),
    "Riscv": ([], PTR + [("def bpAdd", "def bpAddL"), ("bpAdd strict", "bpAddL strict"), ("if strict then Raw.addL r bp n else pure (bp + n)", "Leak.seen (Sha2Riscv.bpAdd strict r bp n)"),
        ("asmLoad", "asmLoadL"), ("opaqueLoad", "opaqueLoadL"), ("check (a % k = 0", "Leak.emit (.index a) (Rs.check (a % k = 0"), ("a < p + n)", "a < p + n))"),
        ("Option", "Leak"), ("if p % (w / 8) = 0 then loadAlignedChk n fin m r p else loadUnalignedChk strict xlen n fin m r p",
         "branch (p % (w / 8) = 0) (loadAlignedChk n fin m r p) (loadUnalignedChk strict xlen n fin m r p)"),
        ("if r < 16 * o.groups then scheduleChk o b r else pure b", "branch (r < 16 * o.groups) (scheduleChk o b r) (pure b)")]),
    "SoftPtr": ([], [("def Obj.readAt (o", "def Obj.readAtL (o"),
        ("do\n  let p ← add o.region o.addr (w / 8 * i)\n  deref o.region align p (w / 8)\n  pure (BitVec.ofNat w (ofLE ((o.data.drop (p - o.addr)).take (w / 8))))",
         "Leak.emit (.index (o.addr + w / 8 * i)) (o.readAt w align i)"),
        ("\n  match j with" + "".join("\n  | %d => pure (swap %d)" % (j, j) for j in range(7)) + "\n  | _ => panic",
         " Leak.emit (.index j) (swapC j)")]),
}
for f, (skip, extra) in FILES.items():
    src = open(os.path.join(root, "Checked", f + ".lean")).read()
    parts = re.split(r"\n(?=/--|/-|namespace|end |open |variable )", src)
    out = []
    for p in parts:
        if p.startswith("import"):
            p = ("import Verif.Base.LeakRaw" if PTR[0] in extra else "import Verif.Base.Leak") + "\nimport Verif.Checked." + f
        elif p.startswith("/-") and not p.startswith("/--"):
            p = ("/- %s with what an observer of the memory accesses and branches sees (Base/Leak.lean); written by tools/gen_leak.py from\n"
                 "Verif/Checked/%s.lean, which says what is modelled. -/" % (f, f))
        elif p.startswith("open Rs"):
            p = "open Leak"
        elif p.startswith("open Riscv Rs"):
            p = p.replace("open Riscv Rs", "open Riscv Leak")
        elif p.startswith("/--"):
            m = re.search(r"-/\n(def|structure|abbrev|instance) ?([\w.]*)", p)
            if not m or m.group(1) != "def" or m.group(2) in skip:
                continue
            doc, body = p.split("-/\n", 1)
            head = re.search(r":=|\n  \|", body).start()
            sig, rest = body[:head], body[head:]
            i = sig.rfind("Option")
            if i >= 0:
                sig = sig[:i] + "Leak" + sig[i + 6:]
            rest = re.sub(r"=> some ", "=> pure ", rest)
            rest = re.sub(r"\b(then|else) some ", r"\1 pure ", rest) if "2 ^ 31" not in rest and "2 ^ 64" not in rest else rest
            rest = rest.replace("else none", "else panic") if "2 ^ 31" not in rest and "2 ^ 64" not in rest else rest
            rest = rest.replace("=> none", "=> panic").replace("Rs.", "Leak.")
            b = sig + rest
            for name in re.findall(r"\ndef (\w+)C\b", "\n" + src):
                if name + "C" not in skip:
                    b = re.sub(r"\b%sC\b" % name, name + "L", b)
            b = b.replace(".readAt", ".readAtL")
            for old, new in extra:
                if old in ("at2", "upd2", "adcAt", "xorAt", "incI32", "addShift", "nextShift", "idxA", "updA", "all8", "all4", "loadFrom", "asmLoad", "opaqueLoad"):
                    b = re.sub(r"(?<![\w.])%s\b" % old, new, b)
                else:
                    b = b.replace(old, new)
            if f == "Riscv":
                b = re.sub(r"\b(\w+)Chk\b", r"\1L", b)
                b = re.sub(r"def (zknh\w+)\b", r"def \1L", b)
            p = doc + "-/\n" + b
        out.append(p)
    open(os.path.join(root, "Leak", f + ".lean"), "w").write("\n".join(out))
