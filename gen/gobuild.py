#!/usr/bin/env python3
"""Writes lean/Verif/Model/GoBuildTable.lean: the non-test Go and assembly files of /repo, by directory, with the lines before the package
clause, the names each file declares at top level, and the names of this module it uses."""
import os, re, sys
REPO = '/repo'
MOD = 'github.com/henrydcase/nobs'
OUT = os.path.join(os.path.dirname(__file__), '../lean/Verif/Model/GoBuildTable.lean')

def strip(src):
    """Go source without comments, strings and runes (replaced by blanks)"""
    out, i, n = [], 0, len(src)
    while i < n:
        c = src[i]
        if src.startswith('//', i):
            while i < n and src[i] != '\n': i += 1
        elif src.startswith('/*', i):
            j = src.index('*/', i) + 2
            out.append('\n' * src[i:j].count('\n')); i = j
        elif c == '"' or c == "'":
            j = i + 1
            while src[j] != c: j += 2 if src[j] == '\\' else 1
            out.append(c + c); i = j + 1
        elif c == '`':
            j = src.index('`', i + 1)
            out.append('""' + '\n' * src[i:j].count('\n')); i = j + 1
        else:
            out.append(c); i += 1
    return ''.join(out)

def head(src):
    """lines up to the first one that is neither blank nor a // comment"""
    h = []
    for l in src.split('\n'):
        h.append('//' if l.strip().startswith('//') and '+' not in l else l)
        if l.strip() and not l.strip().startswith('//'): break
    return h

def goDecls(code):
    """top-level names: with a body (or types, variables, constants), and functions without body"""
    defs, bare = [], []
    lines = code.split('\n')
    depth = 0; group = None
    for k, l in enumerate(lines):
        if depth == 0:
            m = re.match(r'func\s+(\(\s*\w*\s*\*?\s*(\w+)\s*\)\s*)?(\w+)\s*\(', l)
            if m:
                name = (m.group(2) + '.' if m.group(2) else '') + m.group(3)
                rest = '\n'.join(lines[k:])
                # a body opens on the line where the parameter list ends
                p = rest.index('(', m.end() - 1); d = 0; q = p
                while True:
                    if rest[q] == '(': d += 1
                    if rest[q] == ')':
                        d -= 1
                        if d == 0: break
                    q += 1
                eol = rest.find('\n', q)
                tail = rest[q:eol if eol >= 0 else len(rest)]
                (defs if '{' in tail else bare).append(name)
            m = re.match(r'(type|var|const)\s+(\w+)', l)
            if m: 
                defs.append(m.group(2))
                m2 = re.match(r'(var|const)\s+((\w+\s*,\s*)+\w+)', l)
                if m2: defs.extend(x.strip() for x in m2.group(2).split(',')[1:])
        if re.match(r'(type|var|const)\s*\($', l.rstrip()) and depth == 0: group = 1
        elif group and depth == 1:
            m = re.match(r'\s*((\w+\s*,\s*)*\w+)', l)
            if m and not l.strip().startswith(')'): defs.extend(x.strip() for x in m.group(1).split(','))
        depth += sum(l.count(c) for c in '({[') - sum(l.count(c) for c in ')}]')
        if depth == 0: group = None
    return [d for d in defs if d != '_'], bare

files = []
for d, ds, fs in sorted(os.walk(REPO)):
    ds.sort()
    if '/.git' in d or 'testdata' in d: continue
    for f in sorted(fs):
        if not (f.endswith('.go') or f.endswith('.s')) or f.endswith('_test.go'): continue
        src = open(os.path.join(d, f), encoding='utf8').read()
        code = strip(src)
        e = dict(dir=os.path.relpath(d, REPO), name=f, head=head(src), code=code, defs=[], bare=[], text=[], imports={}, dots=[])
        if f.endswith('.go'):
            e['defs'], e['bare'] = goDecls(code)
            for m in re.finditer(r'^\s*(?:import\s+)?([\w.]+\s+)?"(' + re.escape(MOD) + r'/[^"]*)"', src, re.M):
                path = m.group(2)[len(MOD) + 1:]
                al = (m.group(1) or '').strip()
                if al == '.': e['dots'].append(path)
                else: e['imports'][al or path.split('/')[-1]] = path
        else:
            e['text'] = [m.group(1) for m in re.finditer(r'^TEXT\s+·(\w+)\(SB\)', src, re.M)]
            e['defs'] = []
        files.append(e)

alld = {}
for e in files:
    alld.setdefault(e['dir'], set()).update(x for x in e['defs'] + e['bare'] if '.' not in x and x != 'init' and x != 'main')

for e in files:
    own = set(e['defs'] + e['bare'])
    uses = set()
    imps = sorted(set(e['imports'].values()) | set(e['dots']))
    if e['name'].endswith('.go'):
        c = e['code']
        for m in re.finditer(r'(?<![\w.])([A-Za-z_]\w*)(\s*\.\s*([A-Za-z_]\w*))?', c):
            x, y = m.group(1), m.group(3)
            if y and x in e['imports']:
                uses.add((e['imports'][x], y))
            elif x in alld[e['dir']]:
                if x not in own: uses.add((e['dir'], x))
            else:
                for dt in e['dots']:
                    if x in alld.get(dt, ()): uses.add((dt, x))
    else:
        # Go names the assembly refers to
        own = set(e['text'])
        for m in re.finditer(r'·(\w+)\(SB\)', e['code']):
            if m.group(1) not in own: uses.add((e['dir'], m.group(1)))
    e['imps'] = imps
    e['uses'] = sorted(uses)

def s(x): return '"' + x.replace('\\', '\\\\').replace('"', '\\"').replace('\t', '\\t') + '"'
def sl(l): return '[' + ', '.join(s(x) for x in l) + ']'
def ident(x): return 'n_' + x.replace('.', '_of_')
def did(x): return 'd_' + re.sub(r'\W', '_', x)
def nl(l): return '[' + ', '.join(ident(x) for x in l) + ']'
o = ['import Verif.Model.GoBuild', '', '/-!', 'Generated by gen/gobuild.py from the non-test .go and .s files of /repo.  `head`: the lines up to the first that is neither blank nor a comment',
     '(comments without a plus sign shortened to //); `defs`: names declared at top level (methods as Type_of_Method); `bare`: functions declared',
     'without body; `text`: symbols of the assembly; `imports`: directories of this module it imports; `uses`: names of this module, declared in',
     'another file, that it refers to, with their directories.  Names and directories are numbers, one for each.',
     'An identifier counts as used if it occurs anywhere in the file, so a local variable of the same name counts too.', '-/', 'namespace Model.GoBuild', 'set_option maxRecDepth 20000', '']
alln, dirs = [], []
def add(l, x):
    if x not in l: l.append(x)
for e in files:
    add(dirs, e['dir'])
    for x in e['defs'] + e['bare'] + e['text']: add(alln, x)
    for a, b in e['uses']: add(alln, b)
    for a in e['imps']: assert a in [g['dir'] for g in files], a
assert len(set(map(ident, alln))) == len(alln) and len(set(map(did, dirs))) == len(dirs)
o.append('/-! directories -/')
for k, x in enumerate(dirs): o.append(f'def {did(x)} : Nat := {k}')
o += ['', '/-- what the directories are called -/', 'def dirNames : List (Nat × String) :=', '  [' + ', '.join(f'({did(x)}, {s(x)})' for x in dirs) + ']', '']
o.append('/-! names -/')
for k, x in enumerate(sorted(alln)): o.append(f'def {ident(x)} : Nat := {k}')
o.append('')
names = []
for e in files:
    nm = 'f_' + re.sub(r'\W', '_', e['dir'] + '/' + e['name'])
    names.append((e['dir'], nm))
    o.append(f"/-- {e['dir']}/{e['name']} -/")
    o.append(f"def {nm} : File where")
    o.append(f"  name := {s(e['name'])}")
    o.append(f"  head := {sl(e['head'])}")
    o.append(f"  defs := {nl(e['defs'])}")
    o.append(f"  bare := {nl(e['bare'])}")
    o.append(f"  text := {nl(e['text'])}")
    o.append(f"  imports := [" + ', '.join(did(x) for x in e['imps']) + ']')
    o.append('  uses := [' + ', '.join(f'({did(a)}, {ident(b)})' for a, b in e['uses']) + ']')
    o.append('')
for d in dirs:
    o.append(f'/-- {d} -/')
    o.append(f"def p_{did(d)[2:]} : Pkg := ⟨{did(d)}, [" + ', '.join(n for dd, n in names if dd == d) + ']⟩')
    o.append('')
o.append('/-- the directories of /repo with their files -/')
o.append('def repo : List Pkg :=')
o.append('  [' + ', '.join(f'p_{did(d)[2:]}' for d in dirs) + ']')
o.append('')
o.append('end Model.GoBuild')
open(OUT, 'w').write('\n'.join(o) + '\n')
