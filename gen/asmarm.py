"""The arm64 instructions of the SIDH routines as instructions of Model/Asm.lean (abbreviations in Model/AsmArm64.lean).

Register Ri of arm64 is register 17+i of the model, the frame pointer R29 is register 5 (so that the model's BP is R29), the
assembler's FP is register 16, and ZR is the immediate 0."""
from asmparse import *

ARM = [None]*48
for i in range(31): ARM[17+i] = 'R%d' % i
ARM[17+29] = None
ARM[5] = 'R29'
ARM[16] = 'FP'

def aopd(o, gl):
    o = o.replace(' ', '').replace('\t', '')
    if o == 'ZR': return ('imm', 0)
    q = operand(o, ARM)
    if q[0] == 'glob': q = ('glob', gl[q[1]], q[2])
    return q

def pair(o, gl):
    return [aopd(r, gl) for r in o.strip()[1:-1].split(',')]

def nxt(o): return o[:-1]+(o[-1]+1,)

def arm(m, ops, gl):
    """list of (name, operands) with the names of Model/AsmArm64.lean"""
    if m == 'LDP':
        s, (a, b) = aopd(ops[0], gl), pair(ops[1], gl)
        assert s[0] == 'glob' or ('reg', s[1]) != a
        return [('MOVD', [s, a]), ('MOVD', [nxt(s), b])]
    if m == 'STP':
        (a, b), d = pair(ops[0], gl), aopd(ops[1], gl)
        return [('MOVD', [a, d]), ('MOVD', [b, nxt(d)])]
    if m == 'CSEL':
        return [('CSEL'+ops[0], [aopd(o, gl) for o in ops[1:]])]
    if m == 'ORR':
        r, sh = ops[0].split('>>')
        o = [aopd(t, gl) for t in ops[1:]]
        return [('ORR8', [aopd(r, gl)]+(o if len(o) == 2 else [o[0], o[0]]))] if sh == '8' else None
    if m == 'LSL':
        assert ops[0] == '$56' and len(ops) == 2
        return [('LSL56', [aopd(ops[1], gl)])]
    if m == 'CMP':
        assert ops[0] == '$0'
        return [('CMP0', [aopd(ops[1], gl)])]
    o = [aopd(t, gl) for t in ops]
    if m in ('MOVD', 'NEG'):
        assert len(o) == 2
        return [(m, o)]
    if m == 'MOVB':
        return [('MOVBU', o), ('EORS', [o[1]]), ('SUBX', [o[1]])]
    assert m in ('ADDS', 'ADCS', 'ADC', 'SUBS', 'SBCS', 'SBC', 'SUB', 'AND', 'MUL', 'UMULH'), m
    return [(m, o if len(o) == 3 else [o[0], o[1], o[1]])]

def low(name, o):
    """the instruction of Model/Asm.lean an abbreviation stands for"""
    if name == 'MOVD': return ('mov', o[0], o[1])
    if name == 'NEG': return ('subc', False, 'no', 'no', ('imm', 0), o[0], o[1])
    if name == 'ADDS': return ('addc', 'no', 'both', o[0], o[1], o[2])
    if name == 'ADCS': return ('addc', 'cf', 'both', o[0], o[1], o[2])
    if name == 'ADC': return ('addc', 'cf', 'no', o[0], o[1], o[2])
    if name == 'SUBS': return ('subc', True, 'no', 'both', o[1], o[0], o[2])
    if name == 'SBCS': return ('subc', True, 'cf', 'both', o[1], o[0], o[2])
    if name == 'SBC': return ('subc', True, 'cf', 'no', o[1], o[0], o[2])
    if name == 'SUB': return ('subc', True, 'no', 'no', o[1], o[0], o[2])
    if name == 'AND': return ('and', False, o[0], o[1], o[2])
    if name == 'MUL': return ('mullo', o[0], o[1], o[2])
    if name == 'UMULH': return ('mulhi', o[0], o[1], o[2])
    if name == 'ORR8': return ('orshr', 8, o[0], o[1], o[2])
    if name == 'LSL56': return ('shl', 56, o[0], o[0])
    if name == 'CMP0': return ('cmpz', o[0])
    if name == 'CSELEQ': return ('csel', o[0], o[1], o[2])
    if name == 'CSELNE': return ('csel', o[1], o[0], o[2])
    return (name, o)
