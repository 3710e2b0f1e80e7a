import Verif.Model.AsmArm64
import Verif.Model.SidhParams
/-
The routines of dh/sidh/internal/p503/arith_arm64.s.  Printed by gen/asmgen_arm64.py; each comment gives the line of /repo/dh/sidh/internal
the instructions below it come from.
-/
namespace Model.Arm503
open Model Model.Asm

/-- p503/params.go:`P503`, an array of 12 words. -/
def p : List W64 := Sidh.prime503.p ++ List.replicate 4 0

/-- p503/params.go:`P503x2` -/
def px2 : List W64 := Sidh.prime503.px2 ++ List.replicate 4 0

/-- p503/params.go:48-52 `P503p1s8` -/
def p1s8 : List W64 := [0, 0, 0, 0, 0x085BDA2211E7A0AC, 0x9BF6C87B7E7DAF13, 0x45C6BDDA77A4D01B, 0x4066F541811E1E60] ++ List.replicate 4 0

/-- p503/arith_arm64.s:6-50 `cswapP503` -/
def cswapCode : List Instr := [
  -- p503/arith_arm64.s:6
  MOVD (.mem FP 0) (.reg (A 0)),
  -- p503/arith_arm64.s:7
  MOVD (.mem FP 1) (.reg (A 1)),
  -- p503/arith_arm64.s:8
  MOVBU (.mem FP 2) (.reg (A 2)),
  EORS (.reg (A 2)),
  SUBX (.reg (A 2)),
  -- p503/arith_arm64.s:12
  CMP0 (.reg (A 2)),
  -- p503/arith_arm64.s:14
  MOVD (.mem (A 0) 0) (.reg (A 3)),
  MOVD (.mem (A 0) 1) (.reg (A 4)),
  -- p503/arith_arm64.s:15
  MOVD (.mem (A 1) 0) (.reg (A 5)),
  MOVD (.mem (A 1) 1) (.reg (A 6)),
  -- p503/arith_arm64.s:16
  CSELEQ (.reg (A 3)) (.reg (A 5)) (.reg (A 7)),
  -- p503/arith_arm64.s:17
  CSELEQ (.reg (A 4)) (.reg (A 6)) (.reg (A 8)),
  -- p503/arith_arm64.s:18
  MOVD (.reg (A 7)) (.mem (A 0) 0),
  MOVD (.reg (A 8)) (.mem (A 0) 1),
  -- p503/arith_arm64.s:19
  CSELNE (.reg (A 3)) (.reg (A 5)) (.reg (A 9)),
  -- p503/arith_arm64.s:20
  CSELNE (.reg (A 4)) (.reg (A 6)) (.reg (A 10)),
  -- p503/arith_arm64.s:21
  MOVD (.reg (A 9)) (.mem (A 1) 0),
  MOVD (.reg (A 10)) (.mem (A 1) 1),
  -- p503/arith_arm64.s:23
  MOVD (.mem (A 0) 2) (.reg (A 3)),
  MOVD (.mem (A 0) 3) (.reg (A 4)),
  -- p503/arith_arm64.s:24
  MOVD (.mem (A 1) 2) (.reg (A 5)),
  MOVD (.mem (A 1) 3) (.reg (A 6)),
  -- p503/arith_arm64.s:25
  CSELEQ (.reg (A 3)) (.reg (A 5)) (.reg (A 7)),
  -- p503/arith_arm64.s:26
  CSELEQ (.reg (A 4)) (.reg (A 6)) (.reg (A 8)),
  -- p503/arith_arm64.s:27
  MOVD (.reg (A 7)) (.mem (A 0) 2),
  MOVD (.reg (A 8)) (.mem (A 0) 3),
  -- p503/arith_arm64.s:28
  CSELNE (.reg (A 3)) (.reg (A 5)) (.reg (A 9)),
  -- p503/arith_arm64.s:29
  CSELNE (.reg (A 4)) (.reg (A 6)) (.reg (A 10)),
  -- p503/arith_arm64.s:30
  MOVD (.reg (A 9)) (.mem (A 1) 2),
  MOVD (.reg (A 10)) (.mem (A 1) 3),
  -- p503/arith_arm64.s:32
  MOVD (.mem (A 0) 4) (.reg (A 3)),
  MOVD (.mem (A 0) 5) (.reg (A 4)),
  -- p503/arith_arm64.s:33
  MOVD (.mem (A 1) 4) (.reg (A 5)),
  MOVD (.mem (A 1) 5) (.reg (A 6)),
  -- p503/arith_arm64.s:34
  CSELEQ (.reg (A 3)) (.reg (A 5)) (.reg (A 7)),
  -- p503/arith_arm64.s:35
  CSELEQ (.reg (A 4)) (.reg (A 6)) (.reg (A 8)),
  -- p503/arith_arm64.s:36
  MOVD (.reg (A 7)) (.mem (A 0) 4),
  MOVD (.reg (A 8)) (.mem (A 0) 5),
  -- p503/arith_arm64.s:37
  CSELNE (.reg (A 3)) (.reg (A 5)) (.reg (A 9)),
  -- p503/arith_arm64.s:38
  CSELNE (.reg (A 4)) (.reg (A 6)) (.reg (A 10)),
  -- p503/arith_arm64.s:39
  MOVD (.reg (A 9)) (.mem (A 1) 4),
  MOVD (.reg (A 10)) (.mem (A 1) 5),
  -- p503/arith_arm64.s:41
  MOVD (.mem (A 0) 6) (.reg (A 3)),
  MOVD (.mem (A 0) 7) (.reg (A 4)),
  -- p503/arith_arm64.s:42
  MOVD (.mem (A 1) 6) (.reg (A 5)),
  MOVD (.mem (A 1) 7) (.reg (A 6)),
  -- p503/arith_arm64.s:43
  CSELEQ (.reg (A 3)) (.reg (A 5)) (.reg (A 7)),
  -- p503/arith_arm64.s:44
  CSELEQ (.reg (A 4)) (.reg (A 6)) (.reg (A 8)),
  -- p503/arith_arm64.s:45
  MOVD (.reg (A 7)) (.mem (A 0) 6),
  MOVD (.reg (A 8)) (.mem (A 0) 7),
  -- p503/arith_arm64.s:46
  CSELNE (.reg (A 3)) (.reg (A 5)) (.reg (A 9)),
  -- p503/arith_arm64.s:47
  CSELNE (.reg (A 4)) (.reg (A 6)) (.reg (A 10)),
  -- p503/arith_arm64.s:48
  MOVD (.reg (A 9)) (.mem (A 1) 6),
  MOVD (.reg (A 10)) (.mem (A 1) 7)
  ]

def cswap : Routine := { code := cswapCode, frame := 0, glob := [] }

/-- p503/arith_arm64.s:53-114 `addP503` -/
def addCode : List Instr := [
  -- p503/arith_arm64.s:53
  MOVD (.mem FP 0) (.reg (A 2)),
  -- p503/arith_arm64.s:54
  MOVD (.mem FP 1) (.reg (A 0)),
  -- p503/arith_arm64.s:55
  MOVD (.mem FP 2) (.reg (A 1)),
  -- p503/arith_arm64.s:59
  MOVD (.mem (A 0) 0) (.reg (A 3)),
  MOVD (.mem (A 0) 1) (.reg (A 4)),
  -- p503/arith_arm64.s:60
  MOVD (.mem (A 1) 0) (.reg (A 11)),
  MOVD (.mem (A 1) 1) (.reg (A 12)),
  -- p503/arith_arm64.s:61
  MOVD (.mem (A 0) 2) (.reg (A 5)),
  MOVD (.mem (A 0) 3) (.reg (A 6)),
  -- p503/arith_arm64.s:62
  MOVD (.mem (A 1) 2) (.reg (A 13)),
  MOVD (.mem (A 1) 3) (.reg (A 14)),
  -- p503/arith_arm64.s:63
  ADDS (.reg (A 11)) (.reg (A 3)) (.reg (A 3)),
  -- p503/arith_arm64.s:64
  ADCS (.reg (A 12)) (.reg (A 4)) (.reg (A 4)),
  -- p503/arith_arm64.s:65
  ADCS (.reg (A 13)) (.reg (A 5)) (.reg (A 5)),
  -- p503/arith_arm64.s:66
  ADCS (.reg (A 14)) (.reg (A 6)) (.reg (A 6)),
  -- p503/arith_arm64.s:68
  MOVD (.mem (A 0) 4) (.reg (A 7)),
  MOVD (.mem (A 0) 5) (.reg (A 8)),
  -- p503/arith_arm64.s:69
  MOVD (.mem (A 1) 4) (.reg (A 11)),
  MOVD (.mem (A 1) 5) (.reg (A 12)),
  -- p503/arith_arm64.s:70
  MOVD (.mem (A 0) 6) (.reg (A 9)),
  MOVD (.mem (A 0) 7) (.reg (A 10)),
  -- p503/arith_arm64.s:71
  MOVD (.mem (A 1) 6) (.reg (A 13)),
  MOVD (.mem (A 1) 7) (.reg (A 14)),
  -- p503/arith_arm64.s:72
  ADCS (.reg (A 11)) (.reg (A 7)) (.reg (A 7)),
  -- p503/arith_arm64.s:73
  ADCS (.reg (A 12)) (.reg (A 8)) (.reg (A 8)),
  -- p503/arith_arm64.s:74
  ADCS (.reg (A 13)) (.reg (A 9)) (.reg (A 9)),
  -- p503/arith_arm64.s:75
  ADC (.reg (A 14)) (.reg (A 10)) (.reg (A 10)),
  -- p503/arith_arm64.s:78
  MOVD (.glob 2 0) (.reg (A 11)),
  MOVD (.glob 2 1) (.reg (A 12)),
  -- p503/arith_arm64.s:79
  MOVD (.glob 2 3) (.reg (A 13)),
  MOVD (.glob 2 4) (.reg (A 14)),
  -- p503/arith_arm64.s:80
  SUBS (.reg (A 11)) (.reg (A 3)) (.reg (A 3)),
  -- p503/arith_arm64.s:81
  SBCS (.reg (A 12)) (.reg (A 4)) (.reg (A 4)),
  -- p503/arith_arm64.s:82
  MOVD (.glob 2 5) (.reg (A 15)),
  MOVD (.glob 2 6) (.reg (A 16)),
  -- p503/arith_arm64.s:83
  SBCS (.reg (A 12)) (.reg (A 5)) (.reg (A 5)),
  -- p503/arith_arm64.s:84
  SBCS (.reg (A 13)) (.reg (A 6)) (.reg (A 6)),
  -- p503/arith_arm64.s:85
  MOVD (.glob 2 7) (.reg (A 17)),
  -- p503/arith_arm64.s:86
  SBCS (.reg (A 14)) (.reg (A 7)) (.reg (A 7)),
  -- p503/arith_arm64.s:87
  SBCS (.reg (A 15)) (.reg (A 8)) (.reg (A 8)),
  -- p503/arith_arm64.s:88
  SBCS (.reg (A 16)) (.reg (A 9)) (.reg (A 9)),
  -- p503/arith_arm64.s:89
  SBCS (.reg (A 17)) (.reg (A 10)) (.reg (A 10)),
  -- p503/arith_arm64.s:90
  SBC (.imm 0) (.imm 0) (.reg (A 19)),
  -- p503/arith_arm64.s:93
  AND (.reg (A 19)) (.reg (A 11)) (.reg (A 11)),
  -- p503/arith_arm64.s:94
  AND (.reg (A 19)) (.reg (A 12)) (.reg (A 12)),
  -- p503/arith_arm64.s:95
  AND (.reg (A 19)) (.reg (A 13)) (.reg (A 13)),
  -- p503/arith_arm64.s:96
  AND (.reg (A 19)) (.reg (A 14)) (.reg (A 14)),
  -- p503/arith_arm64.s:97
  AND (.reg (A 19)) (.reg (A 15)) (.reg (A 15)),
  -- p503/arith_arm64.s:98
  AND (.reg (A 19)) (.reg (A 16)) (.reg (A 16)),
  -- p503/arith_arm64.s:99
  AND (.reg (A 19)) (.reg (A 17)) (.reg (A 17)),
  -- p503/arith_arm64.s:101
  ADDS (.reg (A 11)) (.reg (A 3)) (.reg (A 3)),
  -- p503/arith_arm64.s:102
  ADCS (.reg (A 12)) (.reg (A 4)) (.reg (A 4)),
  -- p503/arith_arm64.s:103
  MOVD (.reg (A 3)) (.mem (A 2) 0),
  MOVD (.reg (A 4)) (.mem (A 2) 1),
  -- p503/arith_arm64.s:104
  ADCS (.reg (A 12)) (.reg (A 5)) (.reg (A 5)),
  -- p503/arith_arm64.s:105
  ADCS (.reg (A 13)) (.reg (A 6)) (.reg (A 6)),
  -- p503/arith_arm64.s:106
  MOVD (.reg (A 5)) (.mem (A 2) 2),
  MOVD (.reg (A 6)) (.mem (A 2) 3),
  -- p503/arith_arm64.s:107
  ADCS (.reg (A 14)) (.reg (A 7)) (.reg (A 7)),
  -- p503/arith_arm64.s:108
  ADCS (.reg (A 15)) (.reg (A 8)) (.reg (A 8)),
  -- p503/arith_arm64.s:109
  MOVD (.reg (A 7)) (.mem (A 2) 4),
  MOVD (.reg (A 8)) (.mem (A 2) 5),
  -- p503/arith_arm64.s:110
  ADCS (.reg (A 16)) (.reg (A 9)) (.reg (A 9)),
  -- p503/arith_arm64.s:111
  ADC (.reg (A 17)) (.reg (A 10)) (.reg (A 10)),
  -- p503/arith_arm64.s:112
  MOVD (.reg (A 9)) (.mem (A 2) 6),
  MOVD (.reg (A 10)) (.mem (A 2) 7)
  ]

def add : Routine := { code := addCode, frame := 0, glob := [px2] }

/-- p503/arith_arm64.s:117-168 `subP503` -/
def subCode : List Instr := [
  -- p503/arith_arm64.s:117
  MOVD (.mem FP 0) (.reg (A 2)),
  -- p503/arith_arm64.s:118
  MOVD (.mem FP 1) (.reg (A 0)),
  -- p503/arith_arm64.s:119
  MOVD (.mem FP 2) (.reg (A 1)),
  -- p503/arith_arm64.s:123
  MOVD (.mem (A 0) 0) (.reg (A 3)),
  MOVD (.mem (A 0) 1) (.reg (A 4)),
  -- p503/arith_arm64.s:124
  MOVD (.mem (A 1) 0) (.reg (A 11)),
  MOVD (.mem (A 1) 1) (.reg (A 12)),
  -- p503/arith_arm64.s:125
  MOVD (.mem (A 0) 2) (.reg (A 5)),
  MOVD (.mem (A 0) 3) (.reg (A 6)),
  -- p503/arith_arm64.s:126
  MOVD (.mem (A 1) 2) (.reg (A 13)),
  MOVD (.mem (A 1) 3) (.reg (A 14)),
  -- p503/arith_arm64.s:127
  SUBS (.reg (A 11)) (.reg (A 3)) (.reg (A 3)),
  -- p503/arith_arm64.s:128
  SBCS (.reg (A 12)) (.reg (A 4)) (.reg (A 4)),
  -- p503/arith_arm64.s:129
  SBCS (.reg (A 13)) (.reg (A 5)) (.reg (A 5)),
  -- p503/arith_arm64.s:130
  SBCS (.reg (A 14)) (.reg (A 6)) (.reg (A 6)),
  -- p503/arith_arm64.s:132
  MOVD (.mem (A 0) 4) (.reg (A 7)),
  MOVD (.mem (A 0) 5) (.reg (A 8)),
  -- p503/arith_arm64.s:133
  MOVD (.mem (A 1) 4) (.reg (A 11)),
  MOVD (.mem (A 1) 5) (.reg (A 12)),
  -- p503/arith_arm64.s:134
  MOVD (.mem (A 0) 6) (.reg (A 9)),
  MOVD (.mem (A 0) 7) (.reg (A 10)),
  -- p503/arith_arm64.s:135
  MOVD (.mem (A 1) 6) (.reg (A 13)),
  MOVD (.mem (A 1) 7) (.reg (A 14)),
  -- p503/arith_arm64.s:136
  SBCS (.reg (A 11)) (.reg (A 7)) (.reg (A 7)),
  -- p503/arith_arm64.s:137
  SBCS (.reg (A 12)) (.reg (A 8)) (.reg (A 8)),
  -- p503/arith_arm64.s:138
  SBCS (.reg (A 13)) (.reg (A 9)) (.reg (A 9)),
  -- p503/arith_arm64.s:139
  SBCS (.reg (A 14)) (.reg (A 10)) (.reg (A 10)),
  -- p503/arith_arm64.s:140
  SBC (.imm 0) (.imm 0) (.reg (A 19)),
  -- p503/arith_arm64.s:143
  MOVD (.glob 2 0) (.reg (A 11)),
  MOVD (.glob 2 1) (.reg (A 12)),
  -- p503/arith_arm64.s:144
  MOVD (.glob 2 3) (.reg (A 13)),
  MOVD (.glob 2 4) (.reg (A 14)),
  -- p503/arith_arm64.s:145
  AND (.reg (A 19)) (.reg (A 11)) (.reg (A 11)),
  -- p503/arith_arm64.s:146
  AND (.reg (A 19)) (.reg (A 12)) (.reg (A 12)),
  -- p503/arith_arm64.s:147
  MOVD (.glob 2 5) (.reg (A 15)),
  MOVD (.glob 2 6) (.reg (A 16)),
  -- p503/arith_arm64.s:148
  AND (.reg (A 19)) (.reg (A 13)) (.reg (A 13)),
  -- p503/arith_arm64.s:149
  AND (.reg (A 19)) (.reg (A 14)) (.reg (A 14)),
  -- p503/arith_arm64.s:150
  MOVD (.glob 2 7) (.reg (A 17)),
  -- p503/arith_arm64.s:151
  AND (.reg (A 19)) (.reg (A 15)) (.reg (A 15)),
  -- p503/arith_arm64.s:152
  AND (.reg (A 19)) (.reg (A 16)) (.reg (A 16)),
  -- p503/arith_arm64.s:153
  AND (.reg (A 19)) (.reg (A 17)) (.reg (A 17)),
  -- p503/arith_arm64.s:155
  ADDS (.reg (A 11)) (.reg (A 3)) (.reg (A 3)),
  -- p503/arith_arm64.s:156
  ADCS (.reg (A 12)) (.reg (A 4)) (.reg (A 4)),
  -- p503/arith_arm64.s:157
  MOVD (.reg (A 3)) (.mem (A 2) 0),
  MOVD (.reg (A 4)) (.mem (A 2) 1),
  -- p503/arith_arm64.s:158
  ADCS (.reg (A 12)) (.reg (A 5)) (.reg (A 5)),
  -- p503/arith_arm64.s:159
  ADCS (.reg (A 13)) (.reg (A 6)) (.reg (A 6)),
  -- p503/arith_arm64.s:160
  MOVD (.reg (A 5)) (.mem (A 2) 2),
  MOVD (.reg (A 6)) (.mem (A 2) 3),
  -- p503/arith_arm64.s:161
  ADCS (.reg (A 14)) (.reg (A 7)) (.reg (A 7)),
  -- p503/arith_arm64.s:162
  ADCS (.reg (A 15)) (.reg (A 8)) (.reg (A 8)),
  -- p503/arith_arm64.s:163
  MOVD (.reg (A 7)) (.mem (A 2) 4),
  MOVD (.reg (A 8)) (.mem (A 2) 5),
  -- p503/arith_arm64.s:164
  ADCS (.reg (A 16)) (.reg (A 9)) (.reg (A 9)),
  -- p503/arith_arm64.s:165
  ADC (.reg (A 17)) (.reg (A 10)) (.reg (A 10)),
  -- p503/arith_arm64.s:166
  MOVD (.reg (A 9)) (.mem (A 2) 6),
  MOVD (.reg (A 10)) (.mem (A 2) 7)
  ]

def sub : Routine := { code := subCode, frame := 0, glob := [px2] }

/-- p503/arith_arm64.s:171-219 `adlP503` -/
def adlCode : List Instr := [
  -- p503/arith_arm64.s:171
  MOVD (.mem FP 0) (.reg (A 2)),
  -- p503/arith_arm64.s:172
  MOVD (.mem FP 1) (.reg (A 0)),
  -- p503/arith_arm64.s:173
  MOVD (.mem FP 2) (.reg (A 1)),
  -- p503/arith_arm64.s:175
  MOVD (.mem (A 0) 0) (.reg (A 3)),
  MOVD (.mem (A 0) 1) (.reg (A 4)),
  -- p503/arith_arm64.s:176
  MOVD (.mem (A 1) 0) (.reg (A 11)),
  MOVD (.mem (A 1) 1) (.reg (A 12)),
  -- p503/arith_arm64.s:177
  MOVD (.mem (A 0) 2) (.reg (A 5)),
  MOVD (.mem (A 0) 3) (.reg (A 6)),
  -- p503/arith_arm64.s:178
  MOVD (.mem (A 1) 2) (.reg (A 13)),
  MOVD (.mem (A 1) 3) (.reg (A 14)),
  -- p503/arith_arm64.s:179
  ADDS (.reg (A 11)) (.reg (A 3)) (.reg (A 3)),
  -- p503/arith_arm64.s:180
  ADCS (.reg (A 12)) (.reg (A 4)) (.reg (A 4)),
  -- p503/arith_arm64.s:181
  MOVD (.reg (A 3)) (.mem (A 2) 0),
  MOVD (.reg (A 4)) (.mem (A 2) 1),
  -- p503/arith_arm64.s:182
  ADCS (.reg (A 13)) (.reg (A 5)) (.reg (A 5)),
  -- p503/arith_arm64.s:183
  ADCS (.reg (A 14)) (.reg (A 6)) (.reg (A 6)),
  -- p503/arith_arm64.s:184
  MOVD (.reg (A 5)) (.mem (A 2) 2),
  MOVD (.reg (A 6)) (.mem (A 2) 3),
  -- p503/arith_arm64.s:186
  MOVD (.mem (A 0) 4) (.reg (A 7)),
  MOVD (.mem (A 0) 5) (.reg (A 8)),
  -- p503/arith_arm64.s:187
  MOVD (.mem (A 1) 4) (.reg (A 11)),
  MOVD (.mem (A 1) 5) (.reg (A 12)),
  -- p503/arith_arm64.s:188
  MOVD (.mem (A 0) 6) (.reg (A 9)),
  MOVD (.mem (A 0) 7) (.reg (A 10)),
  -- p503/arith_arm64.s:189
  MOVD (.mem (A 1) 6) (.reg (A 13)),
  MOVD (.mem (A 1) 7) (.reg (A 14)),
  -- p503/arith_arm64.s:190
  ADCS (.reg (A 11)) (.reg (A 7)) (.reg (A 7)),
  -- p503/arith_arm64.s:191
  ADCS (.reg (A 12)) (.reg (A 8)) (.reg (A 8)),
  -- p503/arith_arm64.s:192
  MOVD (.reg (A 7)) (.mem (A 2) 4),
  MOVD (.reg (A 8)) (.mem (A 2) 5),
  -- p503/arith_arm64.s:193
  ADCS (.reg (A 13)) (.reg (A 9)) (.reg (A 9)),
  -- p503/arith_arm64.s:194
  ADCS (.reg (A 14)) (.reg (A 10)) (.reg (A 10)),
  -- p503/arith_arm64.s:195
  MOVD (.reg (A 9)) (.mem (A 2) 6),
  MOVD (.reg (A 10)) (.mem (A 2) 7),
  -- p503/arith_arm64.s:197
  MOVD (.mem (A 0) 8) (.reg (A 3)),
  MOVD (.mem (A 0) 9) (.reg (A 4)),
  -- p503/arith_arm64.s:198
  MOVD (.mem (A 1) 8) (.reg (A 11)),
  MOVD (.mem (A 1) 9) (.reg (A 12)),
  -- p503/arith_arm64.s:199
  MOVD (.mem (A 0) 10) (.reg (A 5)),
  MOVD (.mem (A 0) 11) (.reg (A 6)),
  -- p503/arith_arm64.s:200
  MOVD (.mem (A 1) 10) (.reg (A 13)),
  MOVD (.mem (A 1) 11) (.reg (A 14)),
  -- p503/arith_arm64.s:201
  ADCS (.reg (A 11)) (.reg (A 3)) (.reg (A 3)),
  -- p503/arith_arm64.s:202
  ADCS (.reg (A 12)) (.reg (A 4)) (.reg (A 4)),
  -- p503/arith_arm64.s:203
  MOVD (.reg (A 3)) (.mem (A 2) 8),
  MOVD (.reg (A 4)) (.mem (A 2) 9),
  -- p503/arith_arm64.s:204
  ADCS (.reg (A 13)) (.reg (A 5)) (.reg (A 5)),
  -- p503/arith_arm64.s:205
  ADCS (.reg (A 14)) (.reg (A 6)) (.reg (A 6)),
  -- p503/arith_arm64.s:206
  MOVD (.reg (A 5)) (.mem (A 2) 10),
  MOVD (.reg (A 6)) (.mem (A 2) 11),
  -- p503/arith_arm64.s:208
  MOVD (.mem (A 0) 12) (.reg (A 7)),
  MOVD (.mem (A 0) 13) (.reg (A 8)),
  -- p503/arith_arm64.s:209
  MOVD (.mem (A 1) 12) (.reg (A 11)),
  MOVD (.mem (A 1) 13) (.reg (A 12)),
  -- p503/arith_arm64.s:210
  MOVD (.mem (A 0) 14) (.reg (A 9)),
  MOVD (.mem (A 0) 15) (.reg (A 10)),
  -- p503/arith_arm64.s:211
  MOVD (.mem (A 1) 14) (.reg (A 13)),
  MOVD (.mem (A 1) 15) (.reg (A 14)),
  -- p503/arith_arm64.s:212
  ADCS (.reg (A 11)) (.reg (A 7)) (.reg (A 7)),
  -- p503/arith_arm64.s:213
  ADCS (.reg (A 12)) (.reg (A 8)) (.reg (A 8)),
  -- p503/arith_arm64.s:214
  MOVD (.reg (A 7)) (.mem (A 2) 12),
  MOVD (.reg (A 8)) (.mem (A 2) 13),
  -- p503/arith_arm64.s:215
  ADCS (.reg (A 13)) (.reg (A 9)) (.reg (A 9)),
  -- p503/arith_arm64.s:216
  ADC (.reg (A 14)) (.reg (A 10)) (.reg (A 10)),
  -- p503/arith_arm64.s:217
  MOVD (.reg (A 9)) (.mem (A 2) 14),
  MOVD (.reg (A 10)) (.mem (A 2) 15)
  ]

def adl : Routine := { code := adlCode, frame := 0, glob := [] }

/-- p503/arith_arm64.s:222-291 `sulP503` -/
def sulCode : List Instr := [
  -- p503/arith_arm64.s:222
  MOVD (.mem FP 0) (.reg (A 2)),
  -- p503/arith_arm64.s:223
  MOVD (.mem FP 1) (.reg (A 0)),
  -- p503/arith_arm64.s:224
  MOVD (.mem FP 2) (.reg (A 1)),
  -- p503/arith_arm64.s:226
  MOVD (.mem (A 0) 0) (.reg (A 3)),
  MOVD (.mem (A 0) 1) (.reg (A 4)),
  -- p503/arith_arm64.s:227
  MOVD (.mem (A 1) 0) (.reg (A 11)),
  MOVD (.mem (A 1) 1) (.reg (A 12)),
  -- p503/arith_arm64.s:228
  MOVD (.mem (A 0) 2) (.reg (A 5)),
  MOVD (.mem (A 0) 3) (.reg (A 6)),
  -- p503/arith_arm64.s:229
  MOVD (.mem (A 1) 2) (.reg (A 13)),
  MOVD (.mem (A 1) 3) (.reg (A 14)),
  -- p503/arith_arm64.s:230
  SUBS (.reg (A 11)) (.reg (A 3)) (.reg (A 3)),
  -- p503/arith_arm64.s:231
  SBCS (.reg (A 12)) (.reg (A 4)) (.reg (A 4)),
  -- p503/arith_arm64.s:232
  MOVD (.reg (A 3)) (.mem (A 2) 0),
  MOVD (.reg (A 4)) (.mem (A 2) 1),
  -- p503/arith_arm64.s:233
  SBCS (.reg (A 13)) (.reg (A 5)) (.reg (A 5)),
  -- p503/arith_arm64.s:234
  SBCS (.reg (A 14)) (.reg (A 6)) (.reg (A 6)),
  -- p503/arith_arm64.s:235
  MOVD (.reg (A 5)) (.mem (A 2) 2),
  MOVD (.reg (A 6)) (.mem (A 2) 3),
  -- p503/arith_arm64.s:237
  MOVD (.mem (A 0) 4) (.reg (A 7)),
  MOVD (.mem (A 0) 5) (.reg (A 8)),
  -- p503/arith_arm64.s:238
  MOVD (.mem (A 1) 4) (.reg (A 11)),
  MOVD (.mem (A 1) 5) (.reg (A 12)),
  -- p503/arith_arm64.s:239
  MOVD (.mem (A 0) 6) (.reg (A 9)),
  MOVD (.mem (A 0) 7) (.reg (A 10)),
  -- p503/arith_arm64.s:240
  MOVD (.mem (A 1) 6) (.reg (A 13)),
  MOVD (.mem (A 1) 7) (.reg (A 14)),
  -- p503/arith_arm64.s:241
  SBCS (.reg (A 11)) (.reg (A 7)) (.reg (A 7)),
  -- p503/arith_arm64.s:242
  SBCS (.reg (A 12)) (.reg (A 8)) (.reg (A 8)),
  -- p503/arith_arm64.s:243
  MOVD (.reg (A 7)) (.mem (A 2) 4),
  MOVD (.reg (A 8)) (.mem (A 2) 5),
  -- p503/arith_arm64.s:244
  SBCS (.reg (A 13)) (.reg (A 9)) (.reg (A 9)),
  -- p503/arith_arm64.s:245
  SBCS (.reg (A 14)) (.reg (A 10)) (.reg (A 10)),
  -- p503/arith_arm64.s:246
  MOVD (.reg (A 9)) (.mem (A 2) 6),
  MOVD (.reg (A 10)) (.mem (A 2) 7),
  -- p503/arith_arm64.s:248
  MOVD (.mem (A 0) 8) (.reg (A 3)),
  MOVD (.mem (A 0) 9) (.reg (A 4)),
  -- p503/arith_arm64.s:249
  MOVD (.mem (A 1) 8) (.reg (A 11)),
  MOVD (.mem (A 1) 9) (.reg (A 12)),
  -- p503/arith_arm64.s:250
  MOVD (.mem (A 0) 10) (.reg (A 5)),
  MOVD (.mem (A 0) 11) (.reg (A 6)),
  -- p503/arith_arm64.s:251
  MOVD (.mem (A 1) 10) (.reg (A 13)),
  MOVD (.mem (A 1) 11) (.reg (A 14)),
  -- p503/arith_arm64.s:252
  SBCS (.reg (A 11)) (.reg (A 3)) (.reg (A 3)),
  -- p503/arith_arm64.s:253
  SBCS (.reg (A 12)) (.reg (A 4)) (.reg (A 4)),
  -- p503/arith_arm64.s:254
  SBCS (.reg (A 13)) (.reg (A 5)) (.reg (A 5)),
  -- p503/arith_arm64.s:255
  SBCS (.reg (A 14)) (.reg (A 6)) (.reg (A 6)),
  -- p503/arith_arm64.s:257
  MOVD (.mem (A 0) 12) (.reg (A 7)),
  MOVD (.mem (A 0) 13) (.reg (A 8)),
  -- p503/arith_arm64.s:258
  MOVD (.mem (A 1) 12) (.reg (A 11)),
  MOVD (.mem (A 1) 13) (.reg (A 12)),
  -- p503/arith_arm64.s:259
  MOVD (.mem (A 0) 14) (.reg (A 9)),
  MOVD (.mem (A 0) 15) (.reg (A 10)),
  -- p503/arith_arm64.s:260
  MOVD (.mem (A 1) 14) (.reg (A 13)),
  MOVD (.mem (A 1) 15) (.reg (A 14)),
  -- p503/arith_arm64.s:261
  SBCS (.reg (A 11)) (.reg (A 7)) (.reg (A 7)),
  -- p503/arith_arm64.s:262
  SBCS (.reg (A 12)) (.reg (A 8)) (.reg (A 8)),
  -- p503/arith_arm64.s:263
  SBCS (.reg (A 13)) (.reg (A 9)) (.reg (A 9)),
  -- p503/arith_arm64.s:264
  SBCS (.reg (A 14)) (.reg (A 10)) (.reg (A 10)),
  -- p503/arith_arm64.s:265
  SBC (.imm 0) (.imm 0) (.reg (A 15)),
  -- p503/arith_arm64.s:268
  MOVD (.glob 2 2) (.reg (A 16)),
  MOVD (.glob 2 3) (.reg (A 17)),
  -- p503/arith_arm64.s:269
  MOVD (.glob 2 4) (.reg (A 19)),
  MOVD (.glob 2 5) (.reg (A 20)),
  -- p503/arith_arm64.s:270
  AND (.reg (A 15)) (.reg (A 16)) (.reg (A 16)),
  -- p503/arith_arm64.s:271
  AND (.reg (A 15)) (.reg (A 17)) (.reg (A 17)),
  -- p503/arith_arm64.s:272
  MOVD (.glob 2 6) (.reg (A 21)),
  MOVD (.glob 2 7) (.reg (A 22)),
  -- p503/arith_arm64.s:273
  AND (.reg (A 15)) (.reg (A 19)) (.reg (A 19)),
  -- p503/arith_arm64.s:274
  AND (.reg (A 15)) (.reg (A 20)) (.reg (A 20)),
  -- p503/arith_arm64.s:275
  AND (.reg (A 15)) (.reg (A 21)) (.reg (A 21)),
  -- p503/arith_arm64.s:276
  AND (.reg (A 15)) (.reg (A 22)) (.reg (A 22)),
  -- p503/arith_arm64.s:278
  ADDS (.reg (A 16)) (.reg (A 3)) (.reg (A 3)),
  -- p503/arith_arm64.s:279
  ADCS (.reg (A 16)) (.reg (A 4)) (.reg (A 4)),
  -- p503/arith_arm64.s:280
  MOVD (.reg (A 3)) (.mem (A 2) 8),
  MOVD (.reg (A 4)) (.mem (A 2) 9),
  -- p503/arith_arm64.s:281
  ADCS (.reg (A 16)) (.reg (A 5)) (.reg (A 5)),
  -- p503/arith_arm64.s:282
  ADCS (.reg (A 17)) (.reg (A 6)) (.reg (A 6)),
  -- p503/arith_arm64.s:283
  MOVD (.reg (A 5)) (.mem (A 2) 10),
  MOVD (.reg (A 6)) (.mem (A 2) 11),
  -- p503/arith_arm64.s:284
  ADCS (.reg (A 19)) (.reg (A 7)) (.reg (A 7)),
  -- p503/arith_arm64.s:285
  ADCS (.reg (A 20)) (.reg (A 8)) (.reg (A 8)),
  -- p503/arith_arm64.s:286
  MOVD (.reg (A 7)) (.mem (A 2) 12),
  MOVD (.reg (A 8)) (.mem (A 2) 13),
  -- p503/arith_arm64.s:287
  ADCS (.reg (A 21)) (.reg (A 9)) (.reg (A 9)),
  -- p503/arith_arm64.s:288
  ADC (.reg (A 22)) (.reg (A 10)) (.reg (A 10)),
  -- p503/arith_arm64.s:289
  MOVD (.reg (A 9)) (.mem (A 2) 14),
  MOVD (.reg (A 10)) (.mem (A 2) 15)
  ]

def sul : Routine := { code := sulCode, frame := 0, glob := [p] }

/-- p503/arith_arm64.s:725-769 `modP503` -/
def modCode : List Instr := [
  -- p503/arith_arm64.s:725
  MOVD (.mem FP 0) (.reg (A 0)),
  -- p503/arith_arm64.s:728
  MOVD (.glob 2 2) (.reg (A 9)),
  MOVD (.glob 2 3) (.reg (A 10)),
  -- p503/arith_arm64.s:729
  MOVD (.mem (A 0) 0) (.reg (A 1)),
  MOVD (.mem (A 0) 1) (.reg (A 2)),
  -- p503/arith_arm64.s:730
  MOVD (.mem (A 0) 2) (.reg (A 3)),
  MOVD (.mem (A 0) 3) (.reg (A 4)),
  -- p503/arith_arm64.s:731
  SUBS (.reg (A 9)) (.reg (A 1)) (.reg (A 1)),
  -- p503/arith_arm64.s:732
  SBCS (.reg (A 9)) (.reg (A 2)) (.reg (A 2)),
  -- p503/arith_arm64.s:734
  MOVD (.mem (A 0) 4) (.reg (A 5)),
  MOVD (.mem (A 0) 5) (.reg (A 6)),
  -- p503/arith_arm64.s:735
  MOVD (.glob 2 4) (.reg (A 11)),
  MOVD (.glob 2 5) (.reg (A 12)),
  -- p503/arith_arm64.s:736
  SBCS (.reg (A 9)) (.reg (A 3)) (.reg (A 3)),
  -- p503/arith_arm64.s:737
  SBCS (.reg (A 10)) (.reg (A 4)) (.reg (A 4)),
  -- p503/arith_arm64.s:739
  MOVD (.mem (A 0) 6) (.reg (A 7)),
  MOVD (.mem (A 0) 7) (.reg (A 8)),
  -- p503/arith_arm64.s:740
  MOVD (.glob 2 6) (.reg (A 13)),
  MOVD (.glob 2 7) (.reg (A 14)),
  -- p503/arith_arm64.s:741
  SBCS (.reg (A 11)) (.reg (A 5)) (.reg (A 5)),
  -- p503/arith_arm64.s:742
  SBCS (.reg (A 12)) (.reg (A 6)) (.reg (A 6)),
  -- p503/arith_arm64.s:744
  SBCS (.reg (A 13)) (.reg (A 7)) (.reg (A 7)),
  -- p503/arith_arm64.s:745
  SBCS (.reg (A 14)) (.reg (A 8)) (.reg (A 8)),
  -- p503/arith_arm64.s:746
  SBC (.imm 0) (.imm 0) (.reg (A 15)),
  -- p503/arith_arm64.s:749
  AND (.reg (A 15)) (.reg (A 9)) (.reg (A 9)),
  -- p503/arith_arm64.s:750
  AND (.reg (A 15)) (.reg (A 10)) (.reg (A 10)),
  -- p503/arith_arm64.s:751
  AND (.reg (A 15)) (.reg (A 11)) (.reg (A 11)),
  -- p503/arith_arm64.s:752
  AND (.reg (A 15)) (.reg (A 12)) (.reg (A 12)),
  -- p503/arith_arm64.s:753
  AND (.reg (A 15)) (.reg (A 13)) (.reg (A 13)),
  -- p503/arith_arm64.s:754
  AND (.reg (A 15)) (.reg (A 14)) (.reg (A 14)),
  -- p503/arith_arm64.s:756
  ADDS (.reg (A 9)) (.reg (A 1)) (.reg (A 1)),
  -- p503/arith_arm64.s:757
  ADCS (.reg (A 9)) (.reg (A 2)) (.reg (A 2)),
  -- p503/arith_arm64.s:758
  MOVD (.reg (A 1)) (.mem (A 0) 0),
  MOVD (.reg (A 2)) (.mem (A 0) 1),
  -- p503/arith_arm64.s:759
  ADCS (.reg (A 9)) (.reg (A 3)) (.reg (A 3)),
  -- p503/arith_arm64.s:760
  ADCS (.reg (A 10)) (.reg (A 4)) (.reg (A 4)),
  -- p503/arith_arm64.s:761
  MOVD (.reg (A 3)) (.mem (A 0) 2),
  MOVD (.reg (A 4)) (.mem (A 0) 3),
  -- p503/arith_arm64.s:762
  ADCS (.reg (A 11)) (.reg (A 5)) (.reg (A 5)),
  -- p503/arith_arm64.s:763
  ADCS (.reg (A 12)) (.reg (A 6)) (.reg (A 6)),
  -- p503/arith_arm64.s:764
  MOVD (.reg (A 5)) (.mem (A 0) 4),
  MOVD (.reg (A 6)) (.mem (A 0) 5),
  -- p503/arith_arm64.s:765
  ADCS (.reg (A 13)) (.reg (A 7)) (.reg (A 7)),
  -- p503/arith_arm64.s:766
  ADCS (.reg (A 14)) (.reg (A 8)) (.reg (A 8)),
  -- p503/arith_arm64.s:767
  MOVD (.reg (A 7)) (.mem (A 0) 6),
  MOVD (.reg (A 8)) (.mem (A 0) 7)
  ]

def mod : Routine := { code := modCode, frame := 0, glob := [p] }

/-- p503/arith_arm64.s:386-527 `mulP503` -/
def mulCode : List Instr := [
  -- p503/arith_arm64.s:386
  MOVD (.mem FP 0) (.reg (A 2)),
  -- p503/arith_arm64.s:387
  MOVD (.mem FP 1) (.reg (A 0)),
  -- p503/arith_arm64.s:388
  MOVD (.mem FP 2) (.reg (A 1)),
  -- p503/arith_arm64.s:392
  MOVD (.mem (A 0) 0) (.reg (A 3)),
  MOVD (.mem (A 0) 1) (.reg (A 4)),
  -- p503/arith_arm64.s:393
  MOVD (.mem (A 0) 4) (.reg (A 7)),
  MOVD (.mem (A 0) 5) (.reg (A 8)),
  -- p503/arith_arm64.s:394
  ADDS (.reg (A 3)) (.reg (A 7)) (.reg (A 25)),
  -- p503/arith_arm64.s:395
  ADCS (.reg (A 4)) (.reg (A 8)) (.reg (A 26)),
  -- p503/arith_arm64.s:396
  MOVD (.mem (A 0) 2) (.reg (A 5)),
  MOVD (.mem (A 0) 3) (.reg (A 6)),
  -- p503/arith_arm64.s:397
  MOVD (.mem (A 0) 6) (.reg (A 9)),
  MOVD (.mem (A 0) 7) (.reg (A 10)),
  -- p503/arith_arm64.s:398
  ADCS (.reg (A 5)) (.reg (A 9)) (.reg (A 27)),
  -- p503/arith_arm64.s:399
  ADCS (.reg (A 6)) (.reg (A 10)) (.reg A29),
  -- p503/arith_arm64.s:400
  ADC (.imm 0) (.imm 0) (.reg (A 7)),
  -- p503/arith_arm64.s:404
  MOVD (.mem (A 1) 0) (.reg (A 11)),
  MOVD (.mem (A 1) 1) (.reg (A 12)),
  -- p503/arith_arm64.s:405
  MOVD (.mem (A 1) 4) (.reg (A 15)),
  MOVD (.mem (A 1) 5) (.reg (A 16)),
  -- p503/arith_arm64.s:406
  ADDS (.reg (A 15)) (.reg (A 11)) (.reg (A 11)),
  -- p503/arith_arm64.s:407
  ADCS (.reg (A 16)) (.reg (A 12)) (.reg (A 12)),
  -- p503/arith_arm64.s:408
  MOVD (.mem (A 1) 2) (.reg (A 13)),
  MOVD (.mem (A 1) 3) (.reg (A 14)),
  -- p503/arith_arm64.s:409
  MOVD (.mem (A 1) 6) (.reg (A 17)),
  MOVD (.mem (A 1) 7) (.reg (A 19)),
  -- p503/arith_arm64.s:410
  ADCS (.reg (A 17)) (.reg (A 13)) (.reg (A 13)),
  -- p503/arith_arm64.s:411
  ADCS (.reg (A 19)) (.reg (A 14)) (.reg (A 14)),
  -- p503/arith_arm64.s:412
  ADC (.imm 0) (.imm 0) (.reg (A 8)),
  -- p503/arith_arm64.s:415
  SUB (.reg (A 7)) (.imm 0) (.reg (A 9)),
  -- p503/arith_arm64.s:416
  SUB (.reg (A 8)) (.imm 0) (.reg (A 10)),
  -- p503/arith_arm64.s:417
  AND (.reg (A 8)) (.reg (A 7)) (.reg (A 7)),
  -- p503/arith_arm64.s:420
  AND (.reg (A 9)) (.reg (A 11)) (.reg (A 15)),
  -- p503/arith_arm64.s:421
  AND (.reg (A 9)) (.reg (A 12)) (.reg (A 16)),
  -- p503/arith_arm64.s:422
  AND (.reg (A 9)) (.reg (A 13)) (.reg (A 17)),
  -- p503/arith_arm64.s:423
  AND (.reg (A 9)) (.reg (A 14)) (.reg (A 19)),
  -- p503/arith_arm64.s:426
  AND (.reg (A 10)) (.reg (A 25)) (.reg (A 20)),
  -- p503/arith_arm64.s:427
  AND (.reg (A 10)) (.reg (A 26)) (.reg (A 21)),
  -- p503/arith_arm64.s:428
  AND (.reg (A 10)) (.reg (A 27)) (.reg (A 22)),
  -- p503/arith_arm64.s:429
  AND (.reg (A 10)) (.reg A29) (.reg (A 23)),
  -- p503/arith_arm64.s:432
  ADDS (.reg (A 20)) (.reg (A 15)) (.reg (A 15)),
  -- p503/arith_arm64.s:433
  ADCS (.reg (A 21)) (.reg (A 16)) (.reg (A 16)),
  -- p503/arith_arm64.s:434
  ADCS (.reg (A 22)) (.reg (A 17)) (.reg (A 17)),
  -- p503/arith_arm64.s:435
  ADCS (.reg (A 23)) (.reg (A 19)) (.reg (A 19)),
  -- p503/arith_arm64.s:436
  ADC (.imm 0) (.reg (A 7)) (.reg (A 7)),
  -- p503/arith_arm64.s:439
  MOVD (.reg (A 25)) (.mem (A 2) 0),
  MOVD (.reg (A 26)) (.mem (A 2) 1),
  -- p503/arith_arm64.s:442
  ADDS (.reg (A 27)) (.reg (A 25)) (.reg (A 25)),
  ADCS (.reg A29) (.reg (A 26)) (.reg (A 26)),
  ADCS (.imm 0) (.imm 0) (.reg (A 0)),
  ADDS (.reg (A 13)) (.reg (A 11)) (.reg (A 23)),
  ADCS (.reg (A 14)) (.reg (A 12)) (.reg (A 1)),
  ADC (.imm 0) (.imm 0) (.reg (A 24)),
  SUB (.reg (A 0)) (.imm 0) (.reg (A 10)),
  SUB (.reg (A 24)) (.imm 0) (.reg (A 20)),
  AND (.reg (A 24)) (.reg (A 0)) (.reg (A 0)),
  AND (.reg (A 10)) (.reg (A 23)) (.reg (A 8)),
  AND (.reg (A 10)) (.reg (A 1)) (.reg (A 9)),
  AND (.reg (A 20)) (.reg (A 25)) (.reg (A 21)),
  AND (.reg (A 20)) (.reg (A 26)) (.reg (A 22)),
  MUL (.reg (A 23)) (.reg (A 25)) (.reg (A 10)),
  MUL (.reg (A 1)) (.reg (A 25)) (.reg (A 20)),
  ADDS (.reg (A 21)) (.reg (A 8)) (.reg (A 8)),
  UMULH (.reg (A 1)) (.reg (A 25)) (.reg (A 21)),
  ADCS (.reg (A 22)) (.reg (A 9)) (.reg (A 9)),
  UMULH (.reg (A 23)) (.reg (A 25)) (.reg (A 22)),
  ADC (.imm 0) (.reg (A 0)) (.reg (A 0)),
  MUL (.reg (A 26)) (.reg (A 23)) (.reg (A 25)),
  UMULH (.reg (A 26)) (.reg (A 23)) (.reg (A 23)),
  ADDS (.reg (A 22)) (.reg (A 20)) (.reg (A 20)),
  ADC (.imm 0) (.reg (A 21)) (.reg (A 21)),
  MUL (.reg (A 1)) (.reg (A 26)) (.reg (A 24)),
  UMULH (.reg (A 1)) (.reg (A 26)) (.reg (A 1)),
  ADDS (.reg (A 25)) (.reg (A 20)) (.reg (A 20)),
  ADCS (.reg (A 23)) (.reg (A 21)) (.reg (A 21)),
  ADC (.imm 0) (.imm 0) (.reg (A 22)),
  ADDS (.reg (A 24)) (.reg (A 21)) (.reg (A 21)),
  ADC (.reg (A 1)) (.reg (A 22)) (.reg (A 22)),
  MOVD (.mem (A 2) 0) (.reg (A 25)),
  MOVD (.mem (A 2) 1) (.reg (A 26)),
  ADDS (.reg (A 8)) (.reg (A 21)) (.reg (A 21)),
  UMULH (.reg (A 11)) (.reg (A 25)) (.reg (A 24)),
  UMULH (.reg (A 12)) (.reg (A 25)) (.reg (A 1)),
  ADCS (.reg (A 9)) (.reg (A 22)) (.reg (A 22)),
  MUL (.reg (A 11)) (.reg (A 25)) (.reg (A 8)),
  MUL (.reg (A 12)) (.reg (A 25)) (.reg (A 9)),
  ADC (.imm 0) (.reg (A 0)) (.reg (A 0)),
  MUL (.reg (A 26)) (.reg (A 11)) (.reg (A 25)),
  UMULH (.reg (A 26)) (.reg (A 11)) (.reg (A 11)),
  ADDS (.reg (A 24)) (.reg (A 9)) (.reg (A 9)),
  ADC (.imm 0) (.reg (A 1)) (.reg (A 1)),
  MUL (.reg (A 12)) (.reg (A 26)) (.reg (A 23)),
  UMULH (.reg (A 12)) (.reg (A 26)) (.reg (A 12)),
  ADDS (.reg (A 25)) (.reg (A 9)) (.reg (A 9)),
  ADCS (.reg (A 11)) (.reg (A 1)) (.reg (A 1)),
  ADC (.imm 0) (.imm 0) (.reg (A 24)),
  ADDS (.reg (A 23)) (.reg (A 1)) (.reg (A 1)),
  ADC (.reg (A 12)) (.reg (A 24)) (.reg (A 24)),
  MUL (.reg (A 13)) (.reg (A 27)) (.reg (A 25)),
  UMULH (.reg (A 13)) (.reg (A 27)) (.reg (A 11)),
  SUBS (.reg (A 8)) (.reg (A 10)) (.reg (A 10)),
  SBCS (.reg (A 9)) (.reg (A 20)) (.reg (A 20)),
  SBCS (.reg (A 1)) (.reg (A 21)) (.reg (A 21)),
  MUL (.reg (A 14)) (.reg (A 27)) (.reg (A 26)),
  UMULH (.reg (A 14)) (.reg (A 27)) (.reg (A 23)),
  SBCS (.reg (A 24)) (.reg (A 22)) (.reg (A 22)),
  SBCS (.imm 0) (.reg (A 0)) (.reg (A 0)),
  MUL (.reg A29) (.reg (A 13)) (.reg (A 27)),
  UMULH (.reg A29) (.reg (A 13)) (.reg (A 13)),
  ADDS (.reg (A 11)) (.reg (A 26)) (.reg (A 26)),
  ADC (.imm 0) (.reg (A 23)) (.reg (A 23)),
  MUL (.reg (A 14)) (.reg A29) (.reg (A 12)),
  UMULH (.reg (A 14)) (.reg A29) (.reg (A 14)),
  ADDS (.reg (A 27)) (.reg (A 26)) (.reg (A 26)),
  ADCS (.reg (A 13)) (.reg (A 23)) (.reg (A 23)),
  ADC (.imm 0) (.imm 0) (.reg (A 11)),
  ADDS (.reg (A 12)) (.reg (A 23)) (.reg (A 23)),
  ADC (.reg (A 14)) (.reg (A 11)) (.reg (A 11)),
  SUBS (.reg (A 25)) (.reg (A 10)) (.reg (A 10)),
  SBCS (.reg (A 26)) (.reg (A 20)) (.reg (A 20)),
  SBCS (.reg (A 23)) (.reg (A 21)) (.reg (A 21)),
  SBCS (.reg (A 11)) (.reg (A 22)) (.reg (A 22)),
  SBCS (.imm 0) (.reg (A 0)) (.reg (A 0)),
  ADDS (.reg (A 1)) (.reg (A 10)) (.reg (A 10)),
  ADCS (.reg (A 24)) (.reg (A 20)) (.reg (A 20)),
  ADCS (.reg (A 25)) (.reg (A 21)) (.reg (A 21)),
  ADCS (.reg (A 26)) (.reg (A 22)) (.reg (A 22)),
  ADCS (.reg (A 0)) (.reg (A 23)) (.reg (A 23)),
  ADC (.reg (A 11)) (.imm 0) (.reg (A 24)),
  -- p503/arith_arm64.s:444
  MOVD (.mem FP 1) (.reg (A 0)),
  -- p503/arith_arm64.s:445
  MOVD (.mem FP 2) (.reg (A 1)),
  -- p503/arith_arm64.s:447
  ADDS (.reg (A 21)) (.reg (A 15)) (.reg (A 15)),
  -- p503/arith_arm64.s:448
  ADCS (.reg (A 22)) (.reg (A 16)) (.reg (A 16)),
  -- p503/arith_arm64.s:449
  ADCS (.reg (A 23)) (.reg (A 17)) (.reg (A 17)),
  -- p503/arith_arm64.s:450
  ADCS (.reg (A 24)) (.reg (A 19)) (.reg (A 19)),
  -- p503/arith_arm64.s:451
  ADC (.imm 0) (.reg (A 7)) (.reg (A 7)),
  -- p503/arith_arm64.s:454
  MOVD (.mem (A 1) 0) (.reg (A 11)),
  MOVD (.mem (A 1) 1) (.reg (A 12)),
  -- p503/arith_arm64.s:455
  MOVD (.mem (A 1) 2) (.reg (A 13)),
  MOVD (.mem (A 1) 3) (.reg (A 14)),
  -- p503/arith_arm64.s:458
  ADDS (.reg (A 5)) (.reg (A 3)) (.reg (A 3)),
  ADCS (.reg (A 6)) (.reg (A 4)) (.reg (A 4)),
  ADCS (.imm 0) (.imm 0) (.reg (A 1)),
  ADDS (.reg (A 13)) (.reg (A 11)) (.reg (A 27)),
  ADCS (.reg (A 14)) (.reg (A 12)) (.reg (A 2)),
  ADC (.imm 0) (.imm 0) (.reg A29),
  SUB (.reg (A 1)) (.imm 0) (.reg (A 23)),
  SUB (.reg A29) (.imm 0) (.reg (A 24)),
  AND (.reg A29) (.reg (A 1)) (.reg (A 1)),
  AND (.reg (A 23)) (.reg (A 27)) (.reg (A 21)),
  AND (.reg (A 23)) (.reg (A 2)) (.reg (A 22)),
  AND (.reg (A 24)) (.reg (A 3)) (.reg (A 25)),
  AND (.reg (A 24)) (.reg (A 4)) (.reg (A 26)),
  MUL (.reg (A 27)) (.reg (A 3)) (.reg (A 23)),
  MUL (.reg (A 2)) (.reg (A 3)) (.reg (A 24)),
  ADDS (.reg (A 25)) (.reg (A 21)) (.reg (A 21)),
  UMULH (.reg (A 2)) (.reg (A 3)) (.reg (A 25)),
  ADCS (.reg (A 26)) (.reg (A 22)) (.reg (A 22)),
  UMULH (.reg (A 27)) (.reg (A 3)) (.reg (A 26)),
  ADC (.imm 0) (.reg (A 1)) (.reg (A 1)),
  MUL (.reg (A 4)) (.reg (A 27)) (.reg (A 3)),
  UMULH (.reg (A 4)) (.reg (A 27)) (.reg (A 27)),
  ADDS (.reg (A 26)) (.reg (A 24)) (.reg (A 24)),
  ADC (.imm 0) (.reg (A 25)) (.reg (A 25)),
  MUL (.reg (A 2)) (.reg (A 4)) (.reg A29),
  UMULH (.reg (A 2)) (.reg (A 4)) (.reg (A 2)),
  ADDS (.reg (A 3)) (.reg (A 24)) (.reg (A 24)),
  ADCS (.reg (A 27)) (.reg (A 25)) (.reg (A 25)),
  ADC (.imm 0) (.imm 0) (.reg (A 26)),
  ADDS (.reg A29) (.reg (A 25)) (.reg (A 25)),
  ADC (.reg (A 2)) (.reg (A 26)) (.reg (A 26)),
  MOVD (.mem (A 0) 0) (.reg (A 3)),
  MOVD (.mem (A 0) 1) (.reg (A 4)),
  ADDS (.reg (A 21)) (.reg (A 25)) (.reg (A 25)),
  UMULH (.reg (A 11)) (.reg (A 3)) (.reg A29),
  UMULH (.reg (A 12)) (.reg (A 3)) (.reg (A 2)),
  ADCS (.reg (A 22)) (.reg (A 26)) (.reg (A 26)),
  MUL (.reg (A 11)) (.reg (A 3)) (.reg (A 21)),
  MUL (.reg (A 12)) (.reg (A 3)) (.reg (A 22)),
  ADC (.imm 0) (.reg (A 1)) (.reg (A 1)),
  MUL (.reg (A 4)) (.reg (A 11)) (.reg (A 3)),
  UMULH (.reg (A 4)) (.reg (A 11)) (.reg (A 11)),
  ADDS (.reg A29) (.reg (A 22)) (.reg (A 22)),
  ADC (.imm 0) (.reg (A 2)) (.reg (A 2)),
  MUL (.reg (A 12)) (.reg (A 4)) (.reg (A 27)),
  UMULH (.reg (A 12)) (.reg (A 4)) (.reg (A 12)),
  ADDS (.reg (A 3)) (.reg (A 22)) (.reg (A 22)),
  ADCS (.reg (A 11)) (.reg (A 2)) (.reg (A 2)),
  ADC (.imm 0) (.imm 0) (.reg A29),
  ADDS (.reg (A 27)) (.reg (A 2)) (.reg (A 2)),
  ADC (.reg (A 12)) (.reg A29) (.reg A29),
  MUL (.reg (A 13)) (.reg (A 5)) (.reg (A 3)),
  UMULH (.reg (A 13)) (.reg (A 5)) (.reg (A 11)),
  SUBS (.reg (A 21)) (.reg (A 23)) (.reg (A 23)),
  SBCS (.reg (A 22)) (.reg (A 24)) (.reg (A 24)),
  SBCS (.reg (A 2)) (.reg (A 25)) (.reg (A 25)),
  MUL (.reg (A 14)) (.reg (A 5)) (.reg (A 4)),
  UMULH (.reg (A 14)) (.reg (A 5)) (.reg (A 27)),
  SBCS (.reg A29) (.reg (A 26)) (.reg (A 26)),
  SBCS (.imm 0) (.reg (A 1)) (.reg (A 1)),
  MUL (.reg (A 6)) (.reg (A 13)) (.reg (A 5)),
  UMULH (.reg (A 6)) (.reg (A 13)) (.reg (A 13)),
  ADDS (.reg (A 11)) (.reg (A 4)) (.reg (A 4)),
  ADC (.imm 0) (.reg (A 27)) (.reg (A 27)),
  MUL (.reg (A 14)) (.reg (A 6)) (.reg (A 12)),
  UMULH (.reg (A 14)) (.reg (A 6)) (.reg (A 14)),
  ADDS (.reg (A 5)) (.reg (A 4)) (.reg (A 4)),
  ADCS (.reg (A 13)) (.reg (A 27)) (.reg (A 27)),
  ADC (.imm 0) (.imm 0) (.reg (A 11)),
  ADDS (.reg (A 12)) (.reg (A 27)) (.reg (A 27)),
  ADC (.reg (A 14)) (.reg (A 11)) (.reg (A 11)),
  SUBS (.reg (A 3)) (.reg (A 23)) (.reg (A 23)),
  SBCS (.reg (A 4)) (.reg (A 24)) (.reg (A 24)),
  SBCS (.reg (A 27)) (.reg (A 25)) (.reg (A 25)),
  SBCS (.reg (A 11)) (.reg (A 26)) (.reg (A 26)),
  SBCS (.imm 0) (.reg (A 1)) (.reg (A 1)),
  ADDS (.reg (A 2)) (.reg (A 23)) (.reg (A 23)),
  ADCS (.reg A29) (.reg (A 24)) (.reg (A 24)),
  ADCS (.reg (A 3)) (.reg (A 25)) (.reg (A 25)),
  ADCS (.reg (A 4)) (.reg (A 26)) (.reg (A 26)),
  ADCS (.reg (A 1)) (.reg (A 27)) (.reg (A 27)),
  ADC (.reg (A 11)) (.imm 0) (.reg A29),
  -- p503/arith_arm64.s:460
  MOVD (.mem FP 0) (.reg (A 2)),
  -- p503/arith_arm64.s:461
  MOVD (.mem FP 2) (.reg (A 1)),
  -- p503/arith_arm64.s:464
  SUBS (.reg (A 21)) (.reg (A 8)) (.reg (A 8)),
  -- p503/arith_arm64.s:465
  SBCS (.reg (A 22)) (.reg (A 9)) (.reg (A 9)),
  -- p503/arith_arm64.s:466
  MOVD (.reg (A 21)) (.mem (A 2) 0),
  MOVD (.reg (A 22)) (.mem (A 2) 1),
  -- p503/arith_arm64.s:467
  SBCS (.reg (A 23)) (.reg (A 10)) (.reg (A 10)),
  -- p503/arith_arm64.s:468
  SBCS (.reg (A 24)) (.reg (A 20)) (.reg (A 20)),
  -- p503/arith_arm64.s:469
  MOVD (.reg (A 23)) (.mem (A 2) 2),
  MOVD (.reg (A 24)) (.mem (A 2) 3),
  -- p503/arith_arm64.s:470
  SBCS (.reg (A 25)) (.reg (A 15)) (.reg (A 15)),
  -- p503/arith_arm64.s:471
  SBCS (.reg (A 26)) (.reg (A 16)) (.reg (A 16)),
  -- p503/arith_arm64.s:472
  SBCS (.reg (A 27)) (.reg (A 17)) (.reg (A 17)),
  -- p503/arith_arm64.s:473
  SBCS (.reg A29) (.reg (A 19)) (.reg (A 19)),
  -- p503/arith_arm64.s:474
  SBC (.imm 0) (.reg (A 7)) (.reg (A 7)),
  -- p503/arith_arm64.s:477
  MOVD (.mem (A 0) 4) (.reg (A 3)),
  MOVD (.mem (A 0) 5) (.reg (A 4)),
  -- p503/arith_arm64.s:478
  MOVD (.mem (A 0) 6) (.reg (A 5)),
  MOVD (.mem (A 0) 7) (.reg (A 6)),
  -- p503/arith_arm64.s:479
  MOVD (.mem (A 1) 4) (.reg (A 11)),
  MOVD (.mem (A 1) 5) (.reg (A 12)),
  -- p503/arith_arm64.s:480
  MOVD (.mem (A 1) 6) (.reg (A 13)),
  MOVD (.mem (A 1) 7) (.reg (A 14)),
  -- p503/arith_arm64.s:482
  ADDS (.reg (A 25)) (.reg (A 8)) (.reg (A 8)),
  -- p503/arith_arm64.s:483
  ADCS (.reg (A 26)) (.reg (A 9)) (.reg (A 9)),
  -- p503/arith_arm64.s:484
  ADCS (.reg (A 27)) (.reg (A 10)) (.reg (A 10)),
  -- p503/arith_arm64.s:485
  ADCS (.reg A29) (.reg (A 20)) (.reg (A 20)),
  -- p503/arith_arm64.s:486
  ADC (.imm 0) (.imm 0) (.reg (A 1)),
  -- p503/arith_arm64.s:488
  MOVD (.reg (A 20)) (.mem (A 2) 4),
  -- p503/arith_arm64.s:491
  ADDS (.reg (A 5)) (.reg (A 3)) (.reg (A 3)),
  ADCS (.reg (A 6)) (.reg (A 4)) (.reg (A 4)),
  ADCS (.imm 0) (.imm 0) (.reg (A 2)),
  ADDS (.reg (A 13)) (.reg (A 11)) (.reg (A 27)),
  ADCS (.reg (A 14)) (.reg (A 12)) (.reg (A 20)),
  ADC (.imm 0) (.imm 0) (.reg A29),
  SUB (.reg (A 2)) (.imm 0) (.reg (A 23)),
  SUB (.reg A29) (.imm 0) (.reg (A 24)),
  AND (.reg A29) (.reg (A 2)) (.reg (A 2)),
  AND (.reg (A 23)) (.reg (A 27)) (.reg (A 21)),
  AND (.reg (A 23)) (.reg (A 20)) (.reg (A 22)),
  AND (.reg (A 24)) (.reg (A 3)) (.reg (A 25)),
  AND (.reg (A 24)) (.reg (A 4)) (.reg (A 26)),
  MUL (.reg (A 27)) (.reg (A 3)) (.reg (A 23)),
  MUL (.reg (A 20)) (.reg (A 3)) (.reg (A 24)),
  ADDS (.reg (A 25)) (.reg (A 21)) (.reg (A 21)),
  UMULH (.reg (A 20)) (.reg (A 3)) (.reg (A 25)),
  ADCS (.reg (A 26)) (.reg (A 22)) (.reg (A 22)),
  UMULH (.reg (A 27)) (.reg (A 3)) (.reg (A 26)),
  ADC (.imm 0) (.reg (A 2)) (.reg (A 2)),
  MUL (.reg (A 4)) (.reg (A 27)) (.reg (A 3)),
  UMULH (.reg (A 4)) (.reg (A 27)) (.reg (A 27)),
  ADDS (.reg (A 26)) (.reg (A 24)) (.reg (A 24)),
  ADC (.imm 0) (.reg (A 25)) (.reg (A 25)),
  MUL (.reg (A 20)) (.reg (A 4)) (.reg A29),
  UMULH (.reg (A 20)) (.reg (A 4)) (.reg (A 20)),
  ADDS (.reg (A 3)) (.reg (A 24)) (.reg (A 24)),
  ADCS (.reg (A 27)) (.reg (A 25)) (.reg (A 25)),
  ADC (.imm 0) (.imm 0) (.reg (A 26)),
  ADDS (.reg A29) (.reg (A 25)) (.reg (A 25)),
  ADC (.reg (A 20)) (.reg (A 26)) (.reg (A 26)),
  MOVD (.mem (A 0) 4) (.reg (A 3)),
  MOVD (.mem (A 0) 5) (.reg (A 4)),
  ADDS (.reg (A 21)) (.reg (A 25)) (.reg (A 25)),
  UMULH (.reg (A 11)) (.reg (A 3)) (.reg A29),
  UMULH (.reg (A 12)) (.reg (A 3)) (.reg (A 20)),
  ADCS (.reg (A 22)) (.reg (A 26)) (.reg (A 26)),
  MUL (.reg (A 11)) (.reg (A 3)) (.reg (A 21)),
  MUL (.reg (A 12)) (.reg (A 3)) (.reg (A 22)),
  ADC (.imm 0) (.reg (A 2)) (.reg (A 2)),
  MUL (.reg (A 4)) (.reg (A 11)) (.reg (A 3)),
  UMULH (.reg (A 4)) (.reg (A 11)) (.reg (A 11)),
  ADDS (.reg A29) (.reg (A 22)) (.reg (A 22)),
  ADC (.imm 0) (.reg (A 20)) (.reg (A 20)),
  MUL (.reg (A 12)) (.reg (A 4)) (.reg (A 27)),
  UMULH (.reg (A 12)) (.reg (A 4)) (.reg (A 12)),
  ADDS (.reg (A 3)) (.reg (A 22)) (.reg (A 22)),
  ADCS (.reg (A 11)) (.reg (A 20)) (.reg (A 20)),
  ADC (.imm 0) (.imm 0) (.reg A29),
  ADDS (.reg (A 27)) (.reg (A 20)) (.reg (A 20)),
  ADC (.reg (A 12)) (.reg A29) (.reg A29),
  MUL (.reg (A 13)) (.reg (A 5)) (.reg (A 3)),
  UMULH (.reg (A 13)) (.reg (A 5)) (.reg (A 11)),
  SUBS (.reg (A 21)) (.reg (A 23)) (.reg (A 23)),
  SBCS (.reg (A 22)) (.reg (A 24)) (.reg (A 24)),
  SBCS (.reg (A 20)) (.reg (A 25)) (.reg (A 25)),
  MUL (.reg (A 14)) (.reg (A 5)) (.reg (A 4)),
  UMULH (.reg (A 14)) (.reg (A 5)) (.reg (A 27)),
  SBCS (.reg A29) (.reg (A 26)) (.reg (A 26)),
  SBCS (.imm 0) (.reg (A 2)) (.reg (A 2)),
  MUL (.reg (A 6)) (.reg (A 13)) (.reg (A 5)),
  UMULH (.reg (A 6)) (.reg (A 13)) (.reg (A 13)),
  ADDS (.reg (A 11)) (.reg (A 4)) (.reg (A 4)),
  ADC (.imm 0) (.reg (A 27)) (.reg (A 27)),
  MUL (.reg (A 14)) (.reg (A 6)) (.reg (A 12)),
  UMULH (.reg (A 14)) (.reg (A 6)) (.reg (A 14)),
  ADDS (.reg (A 5)) (.reg (A 4)) (.reg (A 4)),
  ADCS (.reg (A 13)) (.reg (A 27)) (.reg (A 27)),
  ADC (.imm 0) (.imm 0) (.reg (A 11)),
  ADDS (.reg (A 12)) (.reg (A 27)) (.reg (A 27)),
  ADC (.reg (A 14)) (.reg (A 11)) (.reg (A 11)),
  SUBS (.reg (A 3)) (.reg (A 23)) (.reg (A 23)),
  SBCS (.reg (A 4)) (.reg (A 24)) (.reg (A 24)),
  SBCS (.reg (A 27)) (.reg (A 25)) (.reg (A 25)),
  SBCS (.reg (A 11)) (.reg (A 26)) (.reg (A 26)),
  SBCS (.imm 0) (.reg (A 2)) (.reg (A 2)),
  ADDS (.reg (A 20)) (.reg (A 23)) (.reg (A 23)),
  ADCS (.reg A29) (.reg (A 24)) (.reg (A 24)),
  ADCS (.reg (A 3)) (.reg (A 25)) (.reg (A 25)),
  ADCS (.reg (A 4)) (.reg (A 26)) (.reg (A 26)),
  ADCS (.reg (A 2)) (.reg (A 27)) (.reg (A 27)),
  ADC (.reg (A 11)) (.imm 0) (.reg A29),
  -- p503/arith_arm64.s:492
  NEG (.reg (A 1)) (.reg (A 1)),
  -- p503/arith_arm64.s:494
  MOVD (.mem FP 0) (.reg (A 2)),
  -- p503/arith_arm64.s:495
  MOVD (.mem (A 2) 4) (.reg (A 20)),
  -- p503/arith_arm64.s:499
  SUBS (.reg (A 21)) (.reg (A 8)) (.reg (A 8)),
  -- p503/arith_arm64.s:500
  SBCS (.reg (A 22)) (.reg (A 9)) (.reg (A 9)),
  -- p503/arith_arm64.s:501
  MOVD (.reg (A 8)) (.mem (A 2) 4),
  MOVD (.reg (A 9)) (.mem (A 2) 5),
  -- p503/arith_arm64.s:502
  SBCS (.reg (A 23)) (.reg (A 10)) (.reg (A 10)),
  -- p503/arith_arm64.s:503
  SBCS (.reg (A 24)) (.reg (A 20)) (.reg (A 20)),
  -- p503/arith_arm64.s:504
  MOVD (.reg (A 10)) (.mem (A 2) 6),
  MOVD (.reg (A 20)) (.mem (A 2) 7),
  -- p503/arith_arm64.s:505
  SBCS (.reg (A 25)) (.reg (A 15)) (.reg (A 15)),
  -- p503/arith_arm64.s:506
  SBCS (.reg (A 26)) (.reg (A 16)) (.reg (A 16)),
  -- p503/arith_arm64.s:507
  SBCS (.reg (A 27)) (.reg (A 17)) (.reg (A 17)),
  -- p503/arith_arm64.s:508
  SBCS (.reg A29) (.reg (A 19)) (.reg (A 19)),
  -- p503/arith_arm64.s:509
  SBC (.imm 0) (.reg (A 7)) (.reg (A 7)),
  -- p503/arith_arm64.s:513
  ADDS (.imm 1) (.reg (A 1)) (.reg (A 1)),
  -- p503/arith_arm64.s:514
  ADCS (.reg (A 21)) (.reg (A 15)) (.reg (A 15)),
  -- p503/arith_arm64.s:515
  ADCS (.reg (A 22)) (.reg (A 16)) (.reg (A 16)),
  -- p503/arith_arm64.s:516
  MOVD (.reg (A 15)) (.mem (A 2) 8),
  MOVD (.reg (A 16)) (.mem (A 2) 9),
  -- p503/arith_arm64.s:517
  ADCS (.reg (A 23)) (.reg (A 17)) (.reg (A 17)),
  -- p503/arith_arm64.s:518
  ADCS (.reg (A 24)) (.reg (A 19)) (.reg (A 19)),
  -- p503/arith_arm64.s:519
  MOVD (.reg (A 17)) (.mem (A 2) 10),
  MOVD (.reg (A 19)) (.mem (A 2) 11),
  -- p503/arith_arm64.s:520
  ADCS (.reg (A 7)) (.reg (A 25)) (.reg (A 25)),
  -- p503/arith_arm64.s:521
  ADCS (.imm 0) (.reg (A 26)) (.reg (A 26)),
  -- p503/arith_arm64.s:522
  MOVD (.reg (A 25)) (.mem (A 2) 12),
  MOVD (.reg (A 26)) (.mem (A 2) 13),
  -- p503/arith_arm64.s:523
  ADCS (.imm 0) (.reg (A 27)) (.reg (A 27)),
  -- p503/arith_arm64.s:524
  ADC (.imm 0) (.reg A29) (.reg A29),
  -- p503/arith_arm64.s:525
  MOVD (.reg (A 27)) (.mem (A 2) 14),
  MOVD (.reg A29) (.mem (A 2) 15)
  ]

def mul : Routine := { code := mulCode, frame := 0, glob := [] }

/-- p503/arith_arm64.s:574-722 `rdcP503` -/
def rdcCode : List Instr := [
  -- p503/arith_arm64.s:574
  MOVD (.mem FP 1) (.reg (A 0)),
  -- p503/arith_arm64.s:577
  MOVD (.mem (A 0) 0) (.reg (A 2)),
  MOVD (.mem (A 0) 1) (.reg (A 3)),
  -- p503/arith_arm64.s:580
  MOVD (.glob 2 4) (.reg (A 25)),
  MOVD (.glob 2 5) (.reg (A 26)),
  -- p503/arith_arm64.s:581
  MOVD (.glob 2 6) (.reg (A 27)),
  MOVD (.glob 2 7) (.reg A29),
  -- p503/arith_arm64.s:584
  MUL (.reg (A 2)) (.reg (A 25)) (.reg (A 4)),
  -- p503/arith_arm64.s:585
  UMULH (.reg (A 2)) (.reg (A 25)) (.reg (A 7)),
  -- p503/arith_arm64.s:586
  MUL (.reg (A 2)) (.reg (A 26)) (.reg (A 5)),
  -- p503/arith_arm64.s:587
  UMULH (.reg (A 2)) (.reg (A 26)) (.reg (A 6)),
  -- p503/arith_arm64.s:589
  MUL (.reg (A 3)) (.reg (A 25)) (.reg (A 10)),
  UMULH (.reg (A 3)) (.reg (A 25)) (.reg (A 11)),
  ADDS (.reg (A 7)) (.reg (A 5)) (.reg (A 5)),
  ADC (.imm 0) (.reg (A 6)) (.reg (A 6)),
  MUL (.reg (A 2)) (.reg (A 27)) (.reg (A 12)),
  UMULH (.reg (A 2)) (.reg (A 27)) (.reg (A 13)),
  ADDS (.reg (A 10)) (.reg (A 5)) (.reg (A 5)),
  ADCS (.reg (A 11)) (.reg (A 6)) (.reg (A 6)),
  ADC (.imm 0) (.imm 0) (.reg (A 7)),
  MUL (.reg (A 3)) (.reg (A 26)) (.reg (A 10)),
  UMULH (.reg (A 3)) (.reg (A 26)) (.reg (A 11)),
  ADDS (.reg (A 12)) (.reg (A 6)) (.reg (A 6)),
  ADCS (.reg (A 13)) (.reg (A 7)) (.reg (A 7)),
  ADC (.imm 0) (.imm 0) (.reg (A 8)),
  MUL (.reg (A 2)) (.reg A29) (.reg (A 12)),
  UMULH (.reg (A 2)) (.reg A29) (.reg (A 13)),
  ADDS (.reg (A 10)) (.reg (A 6)) (.reg (A 6)),
  ADCS (.reg (A 11)) (.reg (A 7)) (.reg (A 7)),
  ADC (.imm 0) (.reg (A 8)) (.reg (A 8)),
  MUL (.reg (A 3)) (.reg (A 27)) (.reg (A 10)),
  UMULH (.reg (A 3)) (.reg (A 27)) (.reg (A 11)),
  ADDS (.reg (A 12)) (.reg (A 7)) (.reg (A 7)),
  ADCS (.reg (A 13)) (.reg (A 8)) (.reg (A 8)),
  ADC (.imm 0) (.imm 0) (.reg (A 9)),
  MUL (.reg (A 3)) (.reg A29) (.reg (A 12)),
  UMULH (.reg (A 3)) (.reg A29) (.reg (A 13)),
  ADDS (.reg (A 10)) (.reg (A 7)) (.reg (A 7)),
  ADCS (.reg (A 11)) (.reg (A 8)) (.reg (A 8)),
  ADC (.imm 0) (.reg (A 9)) (.reg (A 9)),
  ADDS (.reg (A 12)) (.reg (A 8)) (.reg (A 8)),
  ADC (.reg (A 13)) (.reg (A 9)) (.reg (A 9)),
  -- p503/arith_arm64.s:591
  MOVD (.mem (A 0) 2) (.reg (A 3)),
  MOVD (.mem (A 0) 3) (.reg (A 11)),
  -- p503/arith_arm64.s:592
  MOVD (.mem (A 0) 4) (.reg (A 12)),
  MOVD (.mem (A 0) 5) (.reg (A 13)),
  -- p503/arith_arm64.s:593
  MOVD (.mem (A 0) 6) (.reg (A 14)),
  MOVD (.mem (A 0) 7) (.reg (A 15)),
  -- p503/arith_arm64.s:596
  ORR8 (.reg (A 9)) (.imm 0) (.reg (A 10)),
  -- p503/arith_arm64.s:597
  LSL56 (.reg (A 9)),
  -- p503/arith_arm64.s:598
  ORR8 (.reg (A 8)) (.reg (A 9)) (.reg (A 9)),
  -- p503/arith_arm64.s:599
  LSL56 (.reg (A 8)),
  -- p503/arith_arm64.s:600
  ORR8 (.reg (A 7)) (.reg (A 8)) (.reg (A 8)),
  -- p503/arith_arm64.s:601
  LSL56 (.reg (A 7)),
  -- p503/arith_arm64.s:602
  ORR8 (.reg (A 6)) (.reg (A 7)) (.reg (A 7)),
  -- p503/arith_arm64.s:603
  LSL56 (.reg (A 6)),
  -- p503/arith_arm64.s:604
  ORR8 (.reg (A 5)) (.reg (A 6)) (.reg (A 6)),
  -- p503/arith_arm64.s:605
  LSL56 (.reg (A 5)),
  -- p503/arith_arm64.s:606
  ORR8 (.reg (A 4)) (.reg (A 5)) (.reg (A 5)),
  -- p503/arith_arm64.s:607
  LSL56 (.reg (A 4)),
  -- p503/arith_arm64.s:609
  ADDS (.reg (A 4)) (.reg (A 11)) (.reg (A 11)),
  -- p503/arith_arm64.s:610
  ADCS (.reg (A 5)) (.reg (A 12)) (.reg (A 12)),
  -- p503/arith_arm64.s:611
  ADCS (.reg (A 6)) (.reg (A 13)) (.reg (A 13)),
  -- p503/arith_arm64.s:612
  ADCS (.reg (A 7)) (.reg (A 14)) (.reg (A 14)),
  -- p503/arith_arm64.s:613
  ADCS (.reg (A 8)) (.reg (A 15)) (.reg (A 15)),
  -- p503/arith_arm64.s:614
  MOVD (.mem (A 0) 8) (.reg (A 16)),
  MOVD (.mem (A 0) 9) (.reg (A 17)),
  -- p503/arith_arm64.s:615
  MOVD (.mem (A 0) 10) (.reg (A 19)),
  MOVD (.mem (A 0) 11) (.reg (A 20)),
  -- p503/arith_arm64.s:616
  MUL (.reg (A 3)) (.reg (A 25)) (.reg (A 4)),
  -- p503/arith_arm64.s:617
  UMULH (.reg (A 3)) (.reg (A 25)) (.reg (A 7)),
  -- p503/arith_arm64.s:618
  ADCS (.reg (A 9)) (.reg (A 16)) (.reg (A 16)),
  -- p503/arith_arm64.s:619
  ADCS (.reg (A 10)) (.reg (A 17)) (.reg (A 17)),
  -- p503/arith_arm64.s:620
  ADCS (.imm 0) (.reg (A 19)) (.reg (A 19)),
  -- p503/arith_arm64.s:621
  ADCS (.imm 0) (.reg (A 20)) (.reg (A 20)),
  -- p503/arith_arm64.s:622
  MOVD (.mem (A 0) 12) (.reg (A 21)),
  MOVD (.mem (A 0) 13) (.reg (A 22)),
  -- p503/arith_arm64.s:623
  MOVD (.mem (A 0) 14) (.reg (A 23)),
  MOVD (.mem (A 0) 15) (.reg (A 24)),
  -- p503/arith_arm64.s:624
  MUL (.reg (A 3)) (.reg (A 26)) (.reg (A 5)),
  -- p503/arith_arm64.s:625
  UMULH (.reg (A 3)) (.reg (A 26)) (.reg (A 6)),
  -- p503/arith_arm64.s:626
  ADCS (.imm 0) (.reg (A 21)) (.reg (A 21)),
  -- p503/arith_arm64.s:627
  ADCS (.imm 0) (.reg (A 22)) (.reg (A 22)),
  -- p503/arith_arm64.s:628
  ADCS (.imm 0) (.reg (A 23)) (.reg (A 23)),
  -- p503/arith_arm64.s:629
  ADC (.imm 0) (.reg (A 24)) (.reg (A 24)),
  -- p503/arith_arm64.s:632
  MUL (.reg (A 11)) (.reg (A 25)) (.reg (A 10)),
  UMULH (.reg (A 11)) (.reg (A 25)) (.reg (A 0)),
  ADDS (.reg (A 7)) (.reg (A 5)) (.reg (A 5)),
  ADC (.imm 0) (.reg (A 6)) (.reg (A 6)),
  MUL (.reg (A 3)) (.reg (A 27)) (.reg (A 1)),
  UMULH (.reg (A 3)) (.reg (A 27)) (.reg (A 2)),
  ADDS (.reg (A 10)) (.reg (A 5)) (.reg (A 5)),
  ADCS (.reg (A 0)) (.reg (A 6)) (.reg (A 6)),
  ADC (.imm 0) (.imm 0) (.reg (A 7)),
  MUL (.reg (A 11)) (.reg (A 26)) (.reg (A 10)),
  UMULH (.reg (A 11)) (.reg (A 26)) (.reg (A 0)),
  ADDS (.reg (A 1)) (.reg (A 6)) (.reg (A 6)),
  ADCS (.reg (A 2)) (.reg (A 7)) (.reg (A 7)),
  ADC (.imm 0) (.imm 0) (.reg (A 8)),
  MUL (.reg (A 3)) (.reg A29) (.reg (A 1)),
  UMULH (.reg (A 3)) (.reg A29) (.reg (A 2)),
  ADDS (.reg (A 10)) (.reg (A 6)) (.reg (A 6)),
  ADCS (.reg (A 0)) (.reg (A 7)) (.reg (A 7)),
  ADC (.imm 0) (.reg (A 8)) (.reg (A 8)),
  MUL (.reg (A 11)) (.reg (A 27)) (.reg (A 10)),
  UMULH (.reg (A 11)) (.reg (A 27)) (.reg (A 0)),
  ADDS (.reg (A 1)) (.reg (A 7)) (.reg (A 7)),
  ADCS (.reg (A 2)) (.reg (A 8)) (.reg (A 8)),
  ADC (.imm 0) (.imm 0) (.reg (A 9)),
  MUL (.reg (A 11)) (.reg A29) (.reg (A 1)),
  UMULH (.reg (A 11)) (.reg A29) (.reg (A 2)),
  ADDS (.reg (A 10)) (.reg (A 7)) (.reg (A 7)),
  ADCS (.reg (A 0)) (.reg (A 8)) (.reg (A 8)),
  ADC (.imm 0) (.reg (A 9)) (.reg (A 9)),
  ADDS (.reg (A 1)) (.reg (A 8)) (.reg (A 8)),
  ADC (.reg (A 2)) (.reg (A 9)) (.reg (A 9)),
  -- p503/arith_arm64.s:634
  ORR8 (.reg (A 9)) (.imm 0) (.reg (A 10)),
  -- p503/arith_arm64.s:635
  LSL56 (.reg (A 9)),
  -- p503/arith_arm64.s:636
  ORR8 (.reg (A 8)) (.reg (A 9)) (.reg (A 9)),
  -- p503/arith_arm64.s:637
  LSL56 (.reg (A 8)),
  -- p503/arith_arm64.s:638
  ORR8 (.reg (A 7)) (.reg (A 8)) (.reg (A 8)),
  -- p503/arith_arm64.s:639
  LSL56 (.reg (A 7)),
  -- p503/arith_arm64.s:640
  ORR8 (.reg (A 6)) (.reg (A 7)) (.reg (A 7)),
  -- p503/arith_arm64.s:641
  LSL56 (.reg (A 6)),
  -- p503/arith_arm64.s:642
  ORR8 (.reg (A 5)) (.reg (A 6)) (.reg (A 6)),
  -- p503/arith_arm64.s:643
  LSL56 (.reg (A 5)),
  -- p503/arith_arm64.s:644
  ORR8 (.reg (A 4)) (.reg (A 5)) (.reg (A 5)),
  -- p503/arith_arm64.s:645
  LSL56 (.reg (A 4)),
  -- p503/arith_arm64.s:647
  ADDS (.reg (A 4)) (.reg (A 13)) (.reg (A 13)),
  -- p503/arith_arm64.s:648
  ADCS (.reg (A 5)) (.reg (A 14)) (.reg (A 14)),
  -- p503/arith_arm64.s:649
  ADCS (.reg (A 6)) (.reg (A 15)) (.reg (A 15)),
  -- p503/arith_arm64.s:650
  ADCS (.reg (A 7)) (.reg (A 16)) (.reg (A 16)),
  -- p503/arith_arm64.s:651
  MUL (.reg (A 12)) (.reg (A 25)) (.reg (A 4)),
  -- p503/arith_arm64.s:652
  UMULH (.reg (A 12)) (.reg (A 25)) (.reg (A 7)),
  -- p503/arith_arm64.s:653
  ADCS (.reg (A 8)) (.reg (A 17)) (.reg (A 17)),
  -- p503/arith_arm64.s:654
  ADCS (.reg (A 9)) (.reg (A 19)) (.reg (A 19)),
  -- p503/arith_arm64.s:655
  ADCS (.reg (A 10)) (.reg (A 20)) (.reg (A 20)),
  -- p503/arith_arm64.s:656
  ADCS (.imm 0) (.reg (A 21)) (.reg (A 21)),
  -- p503/arith_arm64.s:657
  MUL (.reg (A 12)) (.reg (A 26)) (.reg (A 5)),
  -- p503/arith_arm64.s:658
  UMULH (.reg (A 12)) (.reg (A 26)) (.reg (A 6)),
  -- p503/arith_arm64.s:659
  ADCS (.imm 0) (.reg (A 22)) (.reg (A 22)),
  -- p503/arith_arm64.s:660
  ADCS (.imm 0) (.reg (A 23)) (.reg (A 23)),
  -- p503/arith_arm64.s:661
  ADC (.imm 0) (.reg (A 24)) (.reg (A 24)),
  -- p503/arith_arm64.s:664
  MUL (.reg (A 13)) (.reg (A 25)) (.reg (A 10)),
  UMULH (.reg (A 13)) (.reg (A 25)) (.reg (A 0)),
  ADDS (.reg (A 7)) (.reg (A 5)) (.reg (A 5)),
  ADC (.imm 0) (.reg (A 6)) (.reg (A 6)),
  MUL (.reg (A 12)) (.reg (A 27)) (.reg (A 1)),
  UMULH (.reg (A 12)) (.reg (A 27)) (.reg (A 2)),
  ADDS (.reg (A 10)) (.reg (A 5)) (.reg (A 5)),
  ADCS (.reg (A 0)) (.reg (A 6)) (.reg (A 6)),
  ADC (.imm 0) (.imm 0) (.reg (A 7)),
  MUL (.reg (A 13)) (.reg (A 26)) (.reg (A 10)),
  UMULH (.reg (A 13)) (.reg (A 26)) (.reg (A 0)),
  ADDS (.reg (A 1)) (.reg (A 6)) (.reg (A 6)),
  ADCS (.reg (A 2)) (.reg (A 7)) (.reg (A 7)),
  ADC (.imm 0) (.imm 0) (.reg (A 8)),
  MUL (.reg (A 12)) (.reg A29) (.reg (A 1)),
  UMULH (.reg (A 12)) (.reg A29) (.reg (A 2)),
  ADDS (.reg (A 10)) (.reg (A 6)) (.reg (A 6)),
  ADCS (.reg (A 0)) (.reg (A 7)) (.reg (A 7)),
  ADC (.imm 0) (.reg (A 8)) (.reg (A 8)),
  MUL (.reg (A 13)) (.reg (A 27)) (.reg (A 10)),
  UMULH (.reg (A 13)) (.reg (A 27)) (.reg (A 0)),
  ADDS (.reg (A 1)) (.reg (A 7)) (.reg (A 7)),
  ADCS (.reg (A 2)) (.reg (A 8)) (.reg (A 8)),
  ADC (.imm 0) (.imm 0) (.reg (A 9)),
  MUL (.reg (A 13)) (.reg A29) (.reg (A 1)),
  UMULH (.reg (A 13)) (.reg A29) (.reg (A 2)),
  ADDS (.reg (A 10)) (.reg (A 7)) (.reg (A 7)),
  ADCS (.reg (A 0)) (.reg (A 8)) (.reg (A 8)),
  ADC (.imm 0) (.reg (A 9)) (.reg (A 9)),
  ADDS (.reg (A 1)) (.reg (A 8)) (.reg (A 8)),
  ADC (.reg (A 2)) (.reg (A 9)) (.reg (A 9)),
  -- p503/arith_arm64.s:666
  ORR8 (.reg (A 9)) (.imm 0) (.reg (A 10)),
  -- p503/arith_arm64.s:667
  LSL56 (.reg (A 9)),
  -- p503/arith_arm64.s:668
  ORR8 (.reg (A 8)) (.reg (A 9)) (.reg (A 9)),
  -- p503/arith_arm64.s:669
  LSL56 (.reg (A 8)),
  -- p503/arith_arm64.s:670
  ORR8 (.reg (A 7)) (.reg (A 8)) (.reg (A 8)),
  -- p503/arith_arm64.s:671
  LSL56 (.reg (A 7)),
  -- p503/arith_arm64.s:672
  ORR8 (.reg (A 6)) (.reg (A 7)) (.reg (A 7)),
  -- p503/arith_arm64.s:673
  LSL56 (.reg (A 6)),
  -- p503/arith_arm64.s:674
  ORR8 (.reg (A 5)) (.reg (A 6)) (.reg (A 6)),
  -- p503/arith_arm64.s:675
  LSL56 (.reg (A 5)),
  -- p503/arith_arm64.s:676
  ORR8 (.reg (A 4)) (.reg (A 5)) (.reg (A 5)),
  -- p503/arith_arm64.s:677
  LSL56 (.reg (A 4)),
  -- p503/arith_arm64.s:679
  ADDS (.reg (A 4)) (.reg (A 15)) (.reg (A 15)),
  -- p503/arith_arm64.s:680
  ADCS (.reg (A 5)) (.reg (A 16)) (.reg (A 16)),
  -- p503/arith_arm64.s:681
  ADCS (.reg (A 6)) (.reg (A 17)) (.reg (A 17)),
  -- p503/arith_arm64.s:682
  ADCS (.reg (A 7)) (.reg (A 19)) (.reg (A 19)),
  -- p503/arith_arm64.s:683
  MUL (.reg (A 14)) (.reg (A 25)) (.reg (A 4)),
  -- p503/arith_arm64.s:684
  UMULH (.reg (A 14)) (.reg (A 25)) (.reg (A 7)),
  -- p503/arith_arm64.s:685
  ADCS (.reg (A 8)) (.reg (A 20)) (.reg (A 20)),
  -- p503/arith_arm64.s:686
  ADCS (.reg (A 9)) (.reg (A 21)) (.reg (A 21)),
  -- p503/arith_arm64.s:687
  ADCS (.reg (A 10)) (.reg (A 22)) (.reg (A 22)),
  -- p503/arith_arm64.s:688
  MUL (.reg (A 14)) (.reg (A 26)) (.reg (A 5)),
  -- p503/arith_arm64.s:689
  UMULH (.reg (A 14)) (.reg (A 26)) (.reg (A 6)),
  -- p503/arith_arm64.s:690
  ADCS (.imm 0) (.reg (A 23)) (.reg (A 23)),
  -- p503/arith_arm64.s:691
  ADC (.imm 0) (.reg (A 24)) (.reg (A 24)),
  -- p503/arith_arm64.s:694
  MUL (.reg (A 15)) (.reg (A 25)) (.reg (A 10)),
  UMULH (.reg (A 15)) (.reg (A 25)) (.reg (A 0)),
  ADDS (.reg (A 7)) (.reg (A 5)) (.reg (A 5)),
  ADC (.imm 0) (.reg (A 6)) (.reg (A 6)),
  MUL (.reg (A 14)) (.reg (A 27)) (.reg (A 1)),
  UMULH (.reg (A 14)) (.reg (A 27)) (.reg (A 2)),
  ADDS (.reg (A 10)) (.reg (A 5)) (.reg (A 5)),
  ADCS (.reg (A 0)) (.reg (A 6)) (.reg (A 6)),
  ADC (.imm 0) (.imm 0) (.reg (A 7)),
  MUL (.reg (A 15)) (.reg (A 26)) (.reg (A 10)),
  UMULH (.reg (A 15)) (.reg (A 26)) (.reg (A 0)),
  ADDS (.reg (A 1)) (.reg (A 6)) (.reg (A 6)),
  ADCS (.reg (A 2)) (.reg (A 7)) (.reg (A 7)),
  ADC (.imm 0) (.imm 0) (.reg (A 8)),
  MUL (.reg (A 14)) (.reg A29) (.reg (A 1)),
  UMULH (.reg (A 14)) (.reg A29) (.reg (A 2)),
  ADDS (.reg (A 10)) (.reg (A 6)) (.reg (A 6)),
  ADCS (.reg (A 0)) (.reg (A 7)) (.reg (A 7)),
  ADC (.imm 0) (.reg (A 8)) (.reg (A 8)),
  MUL (.reg (A 15)) (.reg (A 27)) (.reg (A 10)),
  UMULH (.reg (A 15)) (.reg (A 27)) (.reg (A 0)),
  ADDS (.reg (A 1)) (.reg (A 7)) (.reg (A 7)),
  ADCS (.reg (A 2)) (.reg (A 8)) (.reg (A 8)),
  ADC (.imm 0) (.imm 0) (.reg (A 9)),
  MUL (.reg (A 15)) (.reg A29) (.reg (A 1)),
  UMULH (.reg (A 15)) (.reg A29) (.reg (A 2)),
  ADDS (.reg (A 10)) (.reg (A 7)) (.reg (A 7)),
  ADCS (.reg (A 0)) (.reg (A 8)) (.reg (A 8)),
  ADC (.imm 0) (.reg (A 9)) (.reg (A 9)),
  ADDS (.reg (A 1)) (.reg (A 8)) (.reg (A 8)),
  ADC (.reg (A 2)) (.reg (A 9)) (.reg (A 9)),
  -- p503/arith_arm64.s:696
  ORR8 (.reg (A 9)) (.imm 0) (.reg (A 10)),
  -- p503/arith_arm64.s:697
  LSL56 (.reg (A 9)),
  -- p503/arith_arm64.s:698
  ORR8 (.reg (A 8)) (.reg (A 9)) (.reg (A 9)),
  -- p503/arith_arm64.s:699
  LSL56 (.reg (A 8)),
  -- p503/arith_arm64.s:700
  ORR8 (.reg (A 7)) (.reg (A 8)) (.reg (A 8)),
  -- p503/arith_arm64.s:701
  LSL56 (.reg (A 7)),
  -- p503/arith_arm64.s:702
  ORR8 (.reg (A 6)) (.reg (A 7)) (.reg (A 7)),
  -- p503/arith_arm64.s:703
  LSL56 (.reg (A 6)),
  -- p503/arith_arm64.s:704
  ORR8 (.reg (A 5)) (.reg (A 6)) (.reg (A 6)),
  -- p503/arith_arm64.s:705
  LSL56 (.reg (A 5)),
  -- p503/arith_arm64.s:706
  ORR8 (.reg (A 4)) (.reg (A 5)) (.reg (A 5)),
  -- p503/arith_arm64.s:707
  LSL56 (.reg (A 4)),
  -- p503/arith_arm64.s:709
  MOVD (.mem FP 0) (.reg (A 0)),
  -- p503/arith_arm64.s:710
  ADDS (.reg (A 4)) (.reg (A 17)) (.reg (A 17)),
  -- p503/arith_arm64.s:711
  ADCS (.reg (A 5)) (.reg (A 19)) (.reg (A 19)),
  -- p503/arith_arm64.s:712
  MOVD (.reg (A 16)) (.mem (A 0) 0),
  MOVD (.reg (A 17)) (.mem (A 0) 1),
  -- p503/arith_arm64.s:713
  ADCS (.reg (A 6)) (.reg (A 20)) (.reg (A 20)),
  -- p503/arith_arm64.s:714
  ADCS (.reg (A 7)) (.reg (A 21)) (.reg (A 21)),
  -- p503/arith_arm64.s:715
  MOVD (.reg (A 19)) (.mem (A 0) 2),
  MOVD (.reg (A 20)) (.mem (A 0) 3),
  -- p503/arith_arm64.s:716
  ADCS (.reg (A 8)) (.reg (A 22)) (.reg (A 22)),
  -- p503/arith_arm64.s:717
  ADCS (.reg (A 9)) (.reg (A 23)) (.reg (A 23)),
  -- p503/arith_arm64.s:718
  MOVD (.reg (A 21)) (.mem (A 0) 4),
  MOVD (.reg (A 22)) (.mem (A 0) 5),
  -- p503/arith_arm64.s:719
  ADC (.reg (A 10)) (.reg (A 24)) (.reg (A 24)),
  -- p503/arith_arm64.s:720
  MOVD (.reg (A 23)) (.mem (A 0) 6),
  MOVD (.reg (A 24)) (.mem (A 0) 7)
  ]

def rdc : Routine := { code := rdcCode, frame := 0, glob := [p1s8] }

end Model.Arm503
