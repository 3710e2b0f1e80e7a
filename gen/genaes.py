#!/usr/bin/env python3
"""Transcribe the tables of /repo/drbg/internal/aes/const.go into Lean."""
import re
src = open('/repo/drbg/internal/aes/const.go').read().split('\n')
out = ["import Verif.Model.Bytes",
       "/- Generated by gen/genaes.py from drbg/internal/aes/const.go; tables of 256 entries are\nwritten as sixteen rows of sixteen. -/",
       "namespace Model.AES", "open Model", ""]
i = 0
while i < len(src):
    m = re.match(r'var (\w+) = \[(\d+)\](byte|uint32)\{', src[i])
    if m:
        j = i + 1
        vals = []
        while src[j] != '}':
            vals += re.findall(r'0x[0-9a-fA-F]+', src[j].split('//')[0])
            j += 1
        name, n, ty = m.groups()
        assert len(vals) == int(n), (name, len(vals))
        out.append(f"/-- drbg/internal/aes/const.go:{i+1}-{j+1} `{name}` -/")
        T = 'Byte' if ty == 'byte' else 'W32'
        if int(n) == 256:
            out.append(f"def {name} : List (List {T}) :=")
            rows = ["[" + ", ".join(vals[k:k+16]) + "]" for k in range(0, 256, 16)]
        else:
            out.append(f"def {name} : List {T} :=")
            rows = [", ".join(vals)]
        out.append("  [" + ",\n   ".join(rows) + "]")
        out.append("")
        i = j
    i += 1
out.append('''/-- Index of a 256-entry table by a byte, `t[uint8(x)]`; the tables are written in rows of sixteen. -/
def at8 {n : Nat} (t : List (List (BitVec n))) (b : Byte) : BitVec n :=
  (t.getD (b.toNat / 16) []).getD (b.toNat % 16) 0
''')
out.append("end Model.AES")
open('/verif/lean/Verif/Model/AESTab.lean', 'w').write("\n".join(out) + "\n")
