#!/usr/bin/env python3
"""Seeded wrong programs.

usage: mutate.py run MODEL N SEED      draw N random mutants of lean/Verif/Model/MODEL.lean and build the theorems on each
       mutate.py hand FILE             mutants from a JSON-lines file {"file","old","new","breaks"}

Works in a scratch copy (/tmp/mut); /verif/lean is not touched.  Every mutant that still type-checks as a model and is
tried is appended to seeded/LOG.jsonl; mutants under which every theorem still builds are also written to
/tmp/mut-survivors.jsonl for inspection.
"""
import json, os, random, re, shutil, subprocess, sys
ROOT = os.path.dirname(os.path.dirname(os.path.abspath(__file__)))
SRC = os.path.join(ROOT, "lean")
SCR = os.environ.get("MUT_DIR", "/tmp/mut")
LOG = os.path.join(ROOT, "seeded", "LOG.jsonl")
# model file -> (targets, claims)
T = {
 "Xof": (["Props.Sha3", "Props.Ascon", "Props.K12"], "C16 C17 C22 C23 C45"),
 "Ascon": (["Props.Ascon"], "C45"), "Skein": (["Props.Skein"], "C43"), "Belt": (["Props.Belt"], "C44"),
 "VarCore": (["Props.Sha2", "Props.Groestl", "Props.Blake2"], "C06 C07 C24 C35"), "Whirlpool": (["Props.Whirlpool"], "C34 C30"),
 "WhirlpoolTables": (["Props.Whirlpool"], "C34"), "KupynaTables": (["Props.Kupyna"], "C37"),
 "K12": (["Props.K12"], "C23 C20"), "Md4": (["Props.Md"], "C11"), "Md2": (["Props.Md"], "C12"), "Md5": (["Props.Md"], "C10"),
 "Shabal": (["Props.Shabal"], "C41"), "ShabalTables": (["Props.Shabal"], "C41"), "Tiger": (["Props.Tiger"], "C39"),
 "TigerTables": (["Props.Tiger"], "C39"), "Jh": (["Props.Jh"], "C38"), "JhTables": (["Props.Jh"], "C38"),
 "Streebog": (["Props.Streebog"], "C36 C30"), "StreebogTables": (["Props.Streebog"], "C36"),
 "BlockBuffer": (["Props.Streaming", "Props.Md", "Props.Blake2", "Props.Fsb"], "C01 C02 C03 C04 C05 C10 C24 C42"),
 "CoreWrapper": (["Props.Streaming"], "C01 C02 C03 C04 C05"), "Groestl": (["Props.Groestl"], "C35"),
 "GroestlTables": (["Props.Groestl"], "C35"), "Sha1": (["Props.Sha2"], "C08"), "Kupyna": (["Props.Kupyna"], "C37"),
 "Gost94": (["Props.Gost94"], "C40 C30"), "Sha256": (["Props.Sha2"], "C06"), "Sm3": (["Props.Sm3"], "C14"),
 "Sha512": (["Props.Sha2"], "C07"), "Keccak": (["Props.Sha3", "Props.CShake", "Props.K12"], "C15 C16 C18 C22 C23"),
 "Fsb": (["Props.Fsb"], "C42"), "Blake2": (["Props.Blake2"], "C24 C25 C26"), "Ripemd": (["Props.Ripemd"], "C13"),
 "Sha1Checked": (["Props.Sha1Checked"], "C31 C32 C49"), "Sha1Ubc": (["Props.Sha1Checked"], "C33 C49"),
}
extra = os.path.join(ROOT, "tools", "mutate_targets.json")
if os.path.exists(extra):
    T.update({k: tuple(v) for k, v in json.load(open(extra)).items()})

def code_lines(text):
    """(line number, def name) of code lines outside comments."""
    out, depth, name = [], 0, None
    for n, l in enumerate(text.split("\n")):
        start = depth
        depth += l.count("/-") - l.count("-/")
        if start or l.strip().startswith("/-") or l.strip().startswith("--"):
            continue
        m = re.match(r"(?:noncomputable |@\[[^\]]*\] )?(?:def|abbrev) ([\w.'«»]+)", l)
        if m: name = m.group(1)
        if l.startswith(("import", "namespace", "end", "open", "set_option", "attribute", "deriving", "structure", "variable", "inductive")) or not l.strip():
            continue
        if name: out.append((n, name))
    return out

def sites(line):
    body = line
    off = 0
    m = re.match(r".*?:=", line) if re.match(r"(?:def|abbrev) ", line) else None
    if m: off = m.end()
    c = line.find(" --")
    end = c if c >= 0 else len(line)
    r = []
    def add(pat, f):
        for m in re.finditer(pat, line):
            if off <= m.start() and m.end() <= end:
                v = f(m)
                if v is not None and v != m.group(0): r.append((m.start(), m.end(), v))
    add(r" \+ ", lambda m: " - "); add(r"(?<!<) - ", lambda m: " + ")
    add(r" \^\^\^ ", lambda m: " ||| "); add(r" &&& ", lambda m: " ||| "); add(r" \|\|\| ", lambda m: " ^^^ ")
    add(r" \|\|\| ", lambda m: " &&& "); add(r" <<< ", lambda m: " >>> "); add(r" >>> ", lambda m: " <<< ")
    add(r"rotateLeft", lambda m: "rotateRight"); add(r"rotateRight", lambda m: "rotateLeft")
    add(r"(?<![\w.#])\d+(?![\w.])", lambda m: str(int(m.group(0)) + 1))
    add(r"(?<![\w.#])[1-9]\d*(?![\w.])", lambda m: str(int(m.group(0)) - 1))
    add(r"0x[0-9a-fA-F]+", lambda m: hex(int(m.group(0), 16) ^ (1 << random.randrange(4 * (len(m.group(0)) - 2)))))
    add(r" < ", lambda m: " ≤ "); add(r" ≤ ", lambda m: " < "); add(r" = (?=\d)", lambda m: " ≠ "); add(r" ≠ ", lambda m: " = ")
    add(r"\btrue\b", lambda m: "false"); add(r"\bfalse\b", lambda m: "true")
    add(r"\.lazy\b", lambda m: ".eager"); add(r"\.eager\b", lambda m: ".lazy")
    add(r"\bleBytes\b", lambda m: "beBytes"); add(r"\bbeBytes\b", lambda m: "leBytes")
    add(r"\bwordLE\b", lambda m: "wordBE"); add(r"\bwordBE\b", lambda m: "wordLE")
    add(r"bytesOfWordsLE", lambda m: "bytesOfWordsBE"); add(r"bytesOfWordsBE", lambda m: "bytesOfWordsLE")
    add(r" \* ", lambda m: " + "); add(r" % ", lambda m: " / "); add(r"~~~", lambda m: "")
    add(r"\.take\b", lambda m: ".drop"); add(r"\.drop\b", lambda m: ".take")
    add(r"\bx([0-4])\b", lambda m: "x" + str((int(m.group(1)) + 1) % 4))
    return r

def decl_at(path, line):
    name = None
    try: ls = open(path).read().split("\n")
    except OSError: return None
    ns = []
    for l in ls[:line]:
        m = re.match(r"(?:@\[[^\]]*\] )?(?:private )?(?:theorem|def|lemma|abbrev|instance) ([\w.'«»]+)", l)
        if m: name = m.group(1)
        elif l.startswith("example"): name = "example"
    return name

def props_of(mod):
    p = os.path.join(SCR, "Verif", *mod.split(".")) + ".lean"
    return re.findall(r"^theorem (C\d\d\w*)", open(p).read(), re.M) if os.path.exists(p) else []

def prepare():
    if not os.path.exists(SCR):
        shutil.copytree(SRC, SCR, symlinks=True)
    else:
        subprocess.run(["rsync", "-a", "--delete", SRC + "/", SCR + "/"]) if shutil.which("rsync") else (shutil.rmtree(SCR), shutil.copytree(SRC, SCR, symlinks=True))

def build(targets):
    try:
        p = subprocess.run(["timeout", "600", "lake", "build"] + ["Verif." + t for t in targets], cwd=SCR, capture_output=True, text=True)
    except Exception as e:
        return 1, str(e)
    return p.returncode, p.stdout + p.stderr

def trial(path, old_text, new_text, model, defn, edit, claims, targets, breaks=None, tightened=None):
    full = os.path.join(SCR, path)
    open(full, "w").write(new_text)
    try:
        rc, out = build([model.replace("/", ".") if "/" in model else "Model." + model]) if model else (0, "")
        if rc: return "invalid"
        rc, out = build(targets)
        errs = re.findall(r"^error: (Verif/[\w/]+\.lean):(\d+):", out, re.M)
        decls = []
        for f, n in errs:
            if "/Model/" in f or "Verif/Checked/" in f: return "invalid"
            d = decl_at(os.path.join(SCR, f), int(n))
            mod = f[6:-5].replace("/", ".")
            e = f"{mod}:{d}"
            if e not in decls: decls.append(e)
        failed_mods = re.findall(r"^- Verif\.([\w.]+)", out, re.M)
        lost = []
        if rc:
            for t in targets:
                olean = os.path.join(SCR, ".lake/build/lib/lean/Verif", *t.split(".")) + ".olean"
                hard = {f[6:-5].replace("/", ".") for f, _ in errs}
                if t in hard:
                    lost += [d.split(":")[1] for d in decls if d.startswith(t + ":")]
                else:
                    lost += [x for x in props_of(t) if x[:3] in claims.split()]
        rec = {"definition": defn, "file": path, "edit": edit, "breaks": breaks or claims, "failed_at": decls[:6] or (["timeout"] if rc else []),
               "theorems_failed": sorted(set(lost))[:40], "theorems_tightened": tightened or []}
        if rc == 0:
            with open("/tmp/mut-survivors.jsonl", "a") as f: f.write(json.dumps(rec, ensure_ascii=False) + "\n")
            return "SURVIVED " + json.dumps([defn, edit], ensure_ascii=False)
        with open(LOG, "a") as f: f.write(json.dumps(rec, ensure_ascii=False) + "\n")
        return "killed " + ",".join(decls[:2])
    finally:
        open(full, "w").write(old_text)

def main():
    prepare()
    if sys.argv[1] == "run":
        model, n, seed = sys.argv[2], int(sys.argv[3]), int(sys.argv[4])
        random.seed(seed)
        targets, claims = T.get(model) or (["Props.Checked"], "C60")
        path = f"Verif/{model}.lean" if "/" in model else f"Verif/Model/{model}.lean"
        text = open(os.path.join(SCR, path)).read()
        lines = text.split("\n")
        cand = [(ln, d, s) for ln, d in code_lines(text) for s in sites(lines[ln])]
        # spread over definitions
        by = {}
        for c in cand: by.setdefault(c[1], []).append(c)
        for v in by.values(): random.shuffle(v)
        names = list(by); random.shuffle(names)
        order = []
        while any(by.values()):
            for d in names:
                if by[d]: order.append(by[d].pop())
        done = 0
        for ln, d, (a, b, v) in order:
            if done >= n: break
            nl = lines[ln][:a] + v + lines[ln][b:]
            new = "\n".join(lines[:ln] + [nl] + lines[ln + 1:])
            r = trial(path, text, new, model, d, f"line {ln+1}: `{lines[ln].strip()}` -> `{nl.strip()}`", claims, targets)
            print(model, d, r, flush=True)
            if r != "invalid": done += 1
    else:
        for l in open(sys.argv[2]):
            if not l.strip(): continue
            j = json.loads(l)
            path = j["file"]; text = open(os.path.join(SCR, path)).read()
            assert text.count(j["old"]) == 1, (j, text.count(j["old"]))
            model = os.path.basename(path)[:-5]
            targets, claims = T.get(model, (j.get("targets"), ""))
            targets = j.get("targets", targets)
            r = trial(path, text, text.replace(j["old"], j["new"]), model if "/Model/" in path else None, j["def"], f"`{j['old'].strip()}` -> `{j['new'].strip()}`", claims, targets, j["breaks"], j.get("tightened"))
            print(j["def"], r, flush=True)
main()
