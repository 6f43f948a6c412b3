#!/usr/bin/env python3
"""Compare every constant table of the model with the table it transcribes in /repo.

For a table the integer literals of the Rust constant and of the Lean definition are compared in order.  The step lists of
RIPEMD are compared with the `h_ordering … data_index … roll_shift …` lines.  Prints one line per table; exits 1 on a mismatch.
"""
import re, sys
R, M = "/repo/", "/verif/lean/Verif/Model/"
INT = r"0x[0-9a-fA-F_]+|\b\d[\d_]*\b"

def ints(s):
    s = re.sub(r"//[^\n]*", "", s)
    s = re.sub(r"/-.*?-/", "", s, flags=re.S)
    s = re.sub(r"\b(?:V|BitVec |W|u|i)\d+\b|#\d+", "", s)
    return [int(x.replace("_", ""), 0) for x in re.findall(INT, s)]

def rust(path, name, nth=0):
    s = open(R + path).read()
    m = list(re.finditer(r"(?:const|static)\s+" + name + r"\s*:[^=]*=\s*(.*?);\s*\n", s, re.S))[nth]
    return ints(m.group(1))

def lean(mod, name, ns=None):
    s = open(M + mod + ".lean").read()
    if ns:
        s = s[s.index("namespace " + ns):]
    m = re.search(r"^def " + name + r"\b[^\n]*?:=(.*?)(?=^(?:/-|def|end|theorem|structure|abbrev|private|variable|@\[)|\Z)", s, re.S | re.M)
    return ints(m.group(1))

bad = 0
def check(what, a, b):
    global bad
    if a != b or not a:
        bad += 1
        k = next((i for i, (x, y) in enumerate(zip(a, b)) if x != y), min(len(a), len(b)))
        print(f"MISMATCH {what}: lengths {len(a)} {len(b)}, first difference at {k}")
    else:
        print(f"ok {what}: {len(a)} values")

def table(path, name, mod, d, ns=None, nth=0):
    check(f"{path} {name} = {mod}.{d}", rust(path, name, nth), lean(mod, d, ns))

# RIPEMD
for n, rounds in (("160", 5), ("128", 4), ("256", 4), ("320", 5)):
    src = open(R + f"ripemd/src/c{n}.rs").read()
    for par in ("", "par_"):
        for k in range(1, rounds + 1):
            L = re.findall(r"^\s+" + par + r"round%d: h_ordering ([\d, ]+); data_index\s+(\d+); roll_shift\s+(\d+)" % k, src, re.M)
            want = [int(x) for o, i, r in L for x in o.split(",") + [i, r]]
            check(f"ripemd c{n} {par}round{k}", want, lean("Ripemd", ("p" if par else "") + f"r{k}", "C" + n))
    table(f"ripemd/src/c{n}.rs", "H0", "Ripemd", "H0", "C" + n)

for a in [
    ("belt-hash/src/lib.rs", "H0", "Belt", "H0"),
    ("gost94/src/gost94_core.rs", "C", "Gost94", "C"),
    ("md2/src/consts.rs", "S", "Md2", "S"),
    ("md4/src/lib.rs", "S0", "Md4", "S0"),
    ("md5/src/consts.rs", "RC", "Md5", "RC"),
    ("md5/src/consts.rs", "STATE_INIT", "Md5", "stateInit"),
    ("sm3/src/consts.rs", "T32", "Sm3", "T32"),
    ("sm3/src/consts.rs", "H0", "Sm3", "H0"),
    ("sha2/src/consts.rs", "K32", "Sha256", "K32"),
    ("sha2/src/consts.rs", "K64", "Sha512", "K64"),
    ("sha2/src/consts.rs", "H256_224", "Sha256", "H256_224"),
    ("sha2/src/consts.rs", "H256_256", "Sha256", "H256_256"),
    ("sha2/src/consts.rs", "H512_224", "Sha512", "H512_224"),
    ("sha2/src/consts.rs", "H512_256", "Sha512", "H512_256"),
    ("sha2/src/consts.rs", "H512_384", "Sha512", "H512_384"),
    ("sha2/src/consts.rs", "H512_512", "Sha512", "H512_512"),
    ("blake2/src/consts.rs", "SIGMA", "Blake2", "SIGMA"),
    ("sha1/src/lib.rs", "H0", "Sha1", "H0"),
    ("whirlpool/src/consts.rs", "RC", "WhirlpoolTables", "rcNat"),
    ("kupyna/src/consts.rs", "MDS_MATRIX", "KupynaTables", "mdsNat"),
    ("streebog/src/consts.rs", "A", "StreebogTables", "aNat"),
    ("streebog/src/consts.rs", "P", "StreebogTables", "pNat"),
    *[("whirlpool/src/consts.rs", f"C{i}", "WhirlpoolTables", f"tabNat{i}") for i in range(8)],
]:
    try:
        table(*a)
    except Exception as e:
        bad += 1
        print("ERROR", a, e)
k4 = rust("sha1/src/lib.rs", "K")
check("sha1 K", k4, lean("Sha1", "K")[:4])
check("sha1-checked K", k4, rust("sha1-checked/src/compress.rs", "K"))
check("sha1-checked INITIAL_H", rust("sha1/src/lib.rs", "H0"), rust("sha1-checked/src/lib.rs", "INITIAL_H"))

def split(path, name, mod, pat, n):
    check(f"{path} {name}", rust(path, name), [x for i in range(n) for x in lean(mod, pat % i)])
split("groestl/src/table.rs", "TABLE", "GroestlTables", "tabNat%d", 8)
split("kupyna/src/consts.rs", "SBOXES", "KupynaTables", "sboxNat%d", 4)
split("streebog/src/consts.rs", "C", "StreebogTables", "cNat%d", 12)

b2 = open(M + "Blake2.lean").read()
ivs = [ints(x) for x in re.findall(r"IV := ⟨(.*?)⟩", b2, re.S)]
check("blake2 BLAKE2B_IV", rust("blake2/src/consts.rs", "BLAKE2B_IV"), ivs[0])
check("blake2 BLAKE2S_IV", rust("blake2/src/consts.rs", "BLAKE2S_IV"), ivs[1])

# GOST 94: four parameter sets
pr = open(R + "gost94/src/params.rs").read()
for imp, d in (("CryptoProParam", "cryptoProBox"), ("S2015Param", "s2015Box"), ("TestParam", "testBox"), ("GOST28147UAParam", "uaBox")):
    m = re.search(r"impl Gost94Params for " + imp + r" \{.*?S_BOX: SBox = (.*?);", pr, re.S)
    check(f"gost94 {imp}", ints(m.group(1)), lean("Gost94", d))

# JH: hexadecimal strings
jh = open(R + "jh/src/consts.rs").read()
for n in ("224", "256", "384", "512"):
    m = re.search(r"JH" + n + r"_H0[^=]*= hex!\((.*?)\);", jh, re.S)
    check(f"jh JH{n}_H0", [int("".join(re.findall(r"[0-9a-fA-F]+", m.group(1))), 16)], lean("JhTables", f"h{n}Nat"))
m = re.search(r"E8_BITSLICE_ROUNDCONSTANT[^=]*= \[(.*?)\n\];", jh, re.S)
check("jh E8_BITSLICE_ROUNDCONSTANT", [int(x, 16) for x in re.findall(r'hex!\("([0-9a-f]+)"\)', m.group(1))], lean("JhTables", "rcNat"))

# Tiger: tables.bin, little-endian words
raw = open(R + "tiger/src/tables.bin", "rb").read()
w = [int.from_bytes(raw[i:i + 8], "little") for i in range(0, len(raw), 8)]
check("tiger TABLES", w, [x for i in range(4) for x in lean("TigerTables", f"tableNat{i}")])

# FSB: pi.bin, rows of 133 bytes
raw = open(R + "fsb/src/pi.bin", "rb").read()
check("fsb PI", [int.from_bytes(raw[i:i + 133], "big") for i in range(0, len(raw), 133)],
      [x for c in range(16) for x in lean("FsbPi", f"piRows{c}")])

# sha1-checked: disturbance vectors (maskb and the 80 words), in order
ubc = open(R + "sha1-checked/src/ubc_check.rs").read()
want = []
for t, mk, dm in re.findall(r"testt: Testt::T(\d+),\s*maskb: (\d+),\s*dm: \[(.*?)\]", ubc, re.S):
    want += [int(t), int(mk)] + ints(dm)
lu = open(M + "Sha1Ubc.lean").read()
got = []
for t, mk, dm in re.findall(r"Info := ⟨\.T(\d+), (\d+), \[(.*?)\]", lu, re.S):
    got += [int(t), int(mk)] + ints(dm)
check("sha1-checked SHA1_DVS", want, got)

# Shabal: initial values
for n in ("192", "224", "256", "384", "512"):
    v = rust("shabal/src/consts.rs", f"INIT_{n}")
    check(f"shabal INIT_{n}", v, [x for c in "ABC" for x in lean("ShabalTables", f"init{n}{c}")])
# SM3: the 64 macro lines
want = []
for mac, regs, t, w, acc, w2 in re.findall(r"^    (R[12])!\(([a-h, ]+), t\((\d+)\), w1\(&x, (\d+)\), (w1\(&|w2\(&mut )x, (\d+)\)\);",
                                           open(R + "sm3/src/compress.rs").read(), re.M):
    want += [int(mac[1])] + ["abcdefgh".index(c) for c in regs.split(", ")] + [int(t), int(w), int(acc[1]), int(w2)]
got = []
for l in re.findall(r"^  ⟨\.r([12]), ([\d, ]+), \.w([12]), (\d+)⟩", open(M + "Sm3.lean").read(), re.M):
    got += [int(l[0])] + [int(x) for x in l[1].split(",")] + [int(l[2]), int(l[3])]
check("sm3 macro lines", want, got)
sys.exit(bad > 0)
