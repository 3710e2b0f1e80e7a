"""Reads the arithmetic assembly files of /repo: macro expansion and operand parsing for Go's amd64/arm64 assembler.
Used by asmgen.py to print the routines as Lean data."""
import re

X86 = ['AX','CX','DX','BX','SP','BP','SI','DI','R8','R9','R10','R11','R12','R13','R14','R15','FP']

def strip(line):
    i = line.find('//')
    return line if i < 0 else line[:i]

def logical(path):
    """logical lines: (first line number, text), continuation lines joined; parts separated by ';' stay in place"""
    out = []
    cur = None
    for n, raw in enumerate(open(path, encoding='utf8'), 1):
        t = strip(raw.rstrip('\n')).rstrip()
        # a macro line may be continued although a comment follows the backslash
        m = re.match(r'^(.*?)\\\s*$', t)
        body, cont = (m.group(1), True) if m else (t, False)
        if cur is None:
            if cont and body.lstrip().startswith('#define'):
                cur = [n, [body]]
            else:
                out.append((n, t))
        else:
            cur[1].append(body)
            if not cont:
                out.append((cur[0], '\n'.join(cur[1])))
                cur = None
    return out

def split_args(s):
    args, depth, cur = [], 0, ''
    for ch in s:
        if ch == ',' and depth == 0:
            args.append(cur.strip()); cur = ''
        else:
            if ch in '([': depth += 1
            if ch in ')]': depth -= 1
            cur += ch
    args.append(cur.strip())
    return args

class Asm:
    """routines: name -> list of (line, mnemonic, operands) with labels as ('label', name)"""
    def __init__(self, path):
        self.macros = {}
        self.routines = {}
        self.frames = {}
        cur = None
        skip = []
        for n, t in logical(path):
            s = t.strip()
            if s.startswith('#'):
                w = s.split(None, 2)
                if w[0] == '#ifndef': skip.append(w[1] in self.macros); continue
                if w[0] == '#ifdef': skip.append(w[1] not in self.macros); continue
                if w[0] == '#endif': skip.pop(); continue
                if any(skip): continue
                if w[0] == '#define':
                    m = re.match(r'#define\s+(\w+)(\(([^)]*)\))?(.*)$', s, re.S)
                    params = [p.strip() for p in m.group(3).split(',')] if m.group(2) else None
                    self.macros[m.group(1)] = (params, m.group(4))
                elif w[0] == '#undef':
                    self.macros.pop(w[1], None)
                continue
            if any(skip) or not s: continue
            m = re.match(r'TEXT\s+·(\w+)\(SB\)\s*,(.*)$', s)
            if m:
                cur = m.group(1)
                self.routines[cur] = []
                f = re.search(r'\$(\d+)-(\d+)', m.group(2))
                self.frames[cur] = (int(f.group(1)), int(f.group(2)))
                continue
            m = re.match(r'^(\w+):\s*(.*)$', s)
            if m and cur:
                self.routines[cur].append((n, 'label', [m.group(1)]))
                s = m.group(2)
                if not s: continue
            self.emit(cur, n, s)
    def subst(self, text):
        """replace object-like and function-like macros in one piece of text until none is left"""
        for _ in range(100000):
            m = None
            for w in re.finditer(r'(?<![\w·])([A-Za-z_]\w*)', text):
                if w.group(1) in self.macros:
                    params, body = self.macros[w.group(1)]
                    if params is None:
                        text = text[:w.start()] + body.strip(' \t') + text[w.end():]
                        m = w; break
                    rest = text[w.end():]
                    k = len(rest) - len(rest.lstrip())
                    if rest.lstrip().startswith('('):
                        depth, j = 0, k
                        while True:
                            if rest[j] == '(': depth += 1
                            if rest[j] == ')':
                                depth -= 1
                                if depth == 0: break
                            j += 1
                        args = split_args(rest[k+1:j])
                        assert len(args) == len(params), (w.group(1), args, params)
                        d = dict(zip(params, args))
                        b = re.sub(r'(?<![\w·])([A-Za-z_]\w*)', lambda q: d.get(q.group(1), q.group(1)), body)
                        text = text[:w.start()] + b + rest[j+1:]
                        m = w; break
            if m is None: return text
        raise Exception('macro loop')
    def emit(self, cur, n, s):
        text = self.subst(s)
        for piece in re.split(r'[;\n]', text):
            piece = piece.strip()
            if not piece: continue
            w = piece.split(None, 1)
            ops = split_args(w[1]) if len(w) > 1 else []
            self.routines[cur].append((n, w[0], ops))

def num(e):
    e = e.strip()
    if e == '': return 0
    assert re.match(r'^[\s0-9a-fA-FxX+*()\-]*$', e), e
    return eval(e)

def paths(rs, flags):
    """straight-line code for given values of the flag bytes tested by CMPB flag, $1; JE label"""
    labels = {r[2][0]: i for i, r in enumerate(rs) if r[1] == 'label'}
    out, i, cond = [], 0, None
    while True:
        n, m, ops = rs[i]
        if m == 'label': i += 1; continue
        if m == 'RET': return out
        if m == 'CMPB':
            name = re.match(r'·(\w+)\(SB\)', ops[0]).group(1)
            assert ops[1] == '$1'
            cond = flags[name]; i += 1; continue
        if m == 'JE':
            i = labels[ops[0]] if cond else i + 1
            continue
        out.append((n, m, ops)); i += 1

def operand(o, regs):
    """('reg',i) ('imm',v) ('mem',r,off) ('glob',name,off)"""
    o = o.replace(' ', '').replace('\t', '')
    if o in regs: return ('reg', regs.index(o))
    if o.startswith('$'): return ('imm', num(o[1:]) % 2**64)
    m = re.match(r'^(.*)\((\w+)\)$', o)
    base, pre = m.group(2), m.group(1)
    if base == 'SB':
        g = re.match(r'^·(\w+)(.*)$', pre)
        off = num(g.group(2))
        assert off % 8 == 0
        return ('glob', g.group(1), off // 8)
    if base == 'FP':
        g = re.match(r'^(\w+)(\+.*)$', pre)
        off = num(g.group(2))
        return ('mem', regs.index('FP'), off // 8)
    off = num(pre)
    assert off % 8 == 0, o
    return ('mem', regs.index(base), off // 8)
