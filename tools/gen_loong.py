"""Transcribe the LoongArch assembly of /repo into Lean instruction lists (lean/Verif/Model/*Loong.lean).

Every asm line becomes one constructor of Loong.Instr; every macro becomes a function with the same parameters; the body
of `asm!` becomes a list.  Nothing is simplified.
"""
import re, sys

OPS = {'ld.w': 'ldw', 'ld.d': 'ldd', 'st.w': 'stw', 'st.d': 'std', 'add.w': 'addw', 'add.d': 'addd', 'addi.d': 'addid',
       'xor': 'xor', 'and': 'and', 'or': 'or', 'andn': 'andn', 'orn': 'orn', 'rotri.w': 'rotriw', 'rotri.d': 'rotrid',
       'srli.w': 'srliw', 'srli.d': 'srlid', 'revb.2h': 'revb2h', 'revb.d': 'revbd', 'move': 'move'}

def imm(t):
    t = t.strip()
    t = re.sub(r'\s+', ' ', t).replace('&', '&&&').replace('32 -s', '32 - s')
    if re.fullmatch(r'-?\d+', t):
        return f'({t})' if t.startswith('-') else t
    while t.startswith('(') and t.endswith(')') and balanced(t[1:-1]):
        t = t[1:-1].strip()
    return f'({t})'

def balanced(t):
    d = 0
    for ch in t:
        d += ch == '('
        d -= ch == ')'
        if d < 0:
            return False
    return d == 0

def operand(t):
    t = t.strip()
    m = re.fullmatch(r'\$([at]\d|sp)', t)
    if m:
        return '.' + m.group(1)
    m = re.fullmatch(r'%(\w+)', t)
    if m:
        return m.group(1)
    return imm(re.sub(r'%(\w+)', r'\1', t))

def instr(text):
    text = text.strip().rstrip(';').strip()
    op, rest = text.split(None, 1)
    return f'.{OPS[op]} ' + ' '.join(operand(o) for o in rest.split(','))

def asmline(l):
    """pieces of a concat! line: literal strings and $vars (marked %var)"""
    out = ''
    for m in re.finditer(r'"([^"]*)"|\$(\w+)', l):
        out += m.group(1) if m.group(1) is not None else '%' + m.group(2)
    return out

def parse(path):
    macros, body, line0 = [], [], {}
    cur = None
    inasm = False
    for n, l in enumerate(open(path), 1):
        s = l.strip()
        m = re.match(r'macro_rules! (\w+) \{', s)
        if m and m.group(1) != 'c':
            cur = dict(name=m.group(1), params=[], items=[], line=n)
            macros.append(cur)
            continue
        if cur is not None and not inasm:
            m = re.match(r'\((.*)\) => \{', s)
            if m:
                cur['params'] = re.findall(r'\$(\w+):literal', m.group(1))
            elif s.startswith('"'):
                s = s.split('//')[0] if not '"' in s.split('//')[-1] else s
                cur['items'].append(('i', instr(asmline(s))))
            else:
                m = re.match(r'(\w+)!\((.*)\)$', s)
                if m and m.group(1) not in ('c',):
                    cur['items'].append(('m', m.group(1), [arg(a) for a in m.group(2).split(',')]))
            if l.startswith('}'):
                cur['end'] = n
                cur = None
            continue
        if 'asm!(' in s:
            inasm = True
            first = n
            continue
        if inasm:
            m = re.match(r'(\w+)!\((.*)\),$', s)
            if m:
                body.append(('m', m.group(1), [arg(a) for a in m.group(2).split(',')], n))
            elif s.startswith('"'):
                t = re.match(r'"([^"]*)"', s).group(1)
                if t == '42:':
                    body.append(('label', n))
                elif t.startswith('bnez'):
                    body.append(('bnez', t, n))
                else:
                    body.append(('i', instr(t), n))
    return macros, body

def arg(a):
    a = a.strip()
    m = re.fullmatch(r'"\$(\w+)"', a)
    if m:
        return '.' + m.group(1)
    m = re.fullmatch(r'\$(\w+)', a)
    if m:
        return m.group(1)
    return a

def emit(path, ns, title, out):
    macros, body = parse(path)
    short = path.replace('/repo/', '')
    o = [f'import Verif.Isa.Loong', f'/- Model of {path}{title}  Generated by tools/gen_loong.py. -/', f'namespace Hashes.{ns}',
         'open Hashes.Loong', '']
    order = sorted(macros, key=lambda m: m['name'] not in ('roundtail', 'scheldule'))
    for m in order:
        regs = [p for p in m['params'] if p in ('a', 'b', 'c', 'd', 'e', 'f', 'g', 'h')]
        if m['name'] == 'roundtail' and 'sha1' in ns.lower():
            regs = [p for p in m['params'] if p != 'i']
        nats = [p for p in m['params'] if p not in regs]
        sig = ' '.join(f'({p} : {"Reg" if p in regs else "Nat"})' for p in m['params'])
        o.append(f'/-- `{m["name"]}!`, {short}:{m["line"]}-{m["end"]} -/')
        o.append(f'def {m["name"]} {sig} : List Instr :=')
        parts, cur = [], []
        for it in m['items']:
            if it[0] == 'i':
                cur.append(it[1])
            else:
                if cur:
                    parts.append(cur); cur = []
                parts.append(f'{it[1]} ' + ' '.join(it[2]))
        if cur:
            parts.append(cur)
        txt = []
        for p in parts:
            if isinstance(p, list):
                txt.append('[' + ',\n    '.join(p) + ']')
            else:
                txt.append(p)
        o.append('  ' + ' ++\n  '.join(txt))
        o.append('')
    # sections of the body
    sec, cur = [], []
    for it in body:
        if it[0] == 'label':
            sec.append(('pre', cur)); cur = []
        elif it[0] == 'bnez':
            sec.append(('post', cur, it)); cur = []
        elif it[0] == 'm':
            if not sec or sec[-1][0] != 'rounds':
                sec.append(('setup', cur)); cur = []
                sec.append(('rounds', []))
            sec[-1][1].append(it)
        else:
            cur.append(it)
    sec.append(('exit', cur))
    for s in sec:
        if s[0] == 'rounds':
            o.append(f'/-- The rounds, {short}:{s[1][0][3]}-{s[1][-1][3]} -/')
            o.append('def rounds : List (List Instr) := [')
            o.append(',\n'.join('  ' + it[1] + ' ' + ' '.join(it[2]) for it in s[1]) + ']')
            o.append('')
        else:
            name = {'pre': 'prologue', 'setup': 'setup', 'post': 'update', 'exit': 'epilogue'}[s[0]]
            items = s[1]
            if not items:
                o.append(f'/-- (no instruction) -/\ndef {name} : List Instr := []\n')
            else:
                o.append(f'/-- {short}:{items[0][2]}-{items[-1][2]} -/')
                o.append(f'def {name} : List Instr := [')
                o.append(',\n'.join('  ' + it[1] for it in items) + ']')
                o.append('')
            if s[0] == 'post':
                o.append(f'/-- The loop body from the label `42:` up to `{s[2][1]}`, {short}:{s[2][2]}. -/')
                o.append('def body : List Instr := setup ++ rounds.flatten ++ update')
                o.append('')
    o.append('/-- The whole `asm!` block, with at most `fuel` iterations of the loop. -/')
    o.append('def asm (fuel : Nat) (s : St) : Option St := (loop body .a2 fuel (run prologue s)).map (run epilogue)')
    o.append('')
    o.append(f'end Hashes.{ns}')
    open(out, 'w').write('\n'.join(o) + '\n')

L = '/verif/lean/Verif/Model/'
emit('/repo/sha2/src/sha256/loongarch64_asm.rs', 'Sha256.Loong', '.', L + 'Sha256Loong.lean')
emit('/repo/sha2/src/sha512/loongarch64_asm.rs', 'Sha512.Loong', '.', L + 'Sha512Loong.lean')
emit('/repo/sha1/src/compress/loongarch64_asm.rs', 'Sha1.Loong', '.', L + 'Sha1Loong.lean')
emit('/repo/md5/src/compress/loongarch64_asm.rs', 'Md5.Loong', '.', L + 'Md5Loong.lean')
