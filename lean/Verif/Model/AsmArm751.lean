import Verif.Model.AsmArm64
import Verif.Model.SidhParams
/-
The routines of dh/sidh/internal/p751/arith_arm64.s.  Printed by gen/asmgen_arm64.py; each comment gives the line of /repo/dh/sidh/internal
the instructions below it come from.
-/
namespace Model.Arm751
open Model Model.Asm

/-- p751/params.go:`P751`, an array of 12 words. -/
def p : List W64 := Sidh.prime751.p ++ List.replicate 0 0

/-- p751/params.go:`P751x2` -/
def px2 : List W64 := Sidh.prime751.px2 ++ List.replicate 0 0

/-- p751/params.go:`P751p1` -/
def p1 : List W64 := Sidh.prime751.p1

/-- p751/arith_arm64.s:6-68 `cswapP751` -/
def cswapCode : List Instr := [
  -- p751/arith_arm64.s:6
  MOVD (.mem FP 0) (.reg (A 0)),
  -- p751/arith_arm64.s:7
  MOVD (.mem FP 1) (.reg (A 1)),
  -- p751/arith_arm64.s:8
  MOVBU (.mem FP 2) (.reg (A 2)),
  EORS (.reg (A 2)),
  SUBX (.reg (A 2)),
  -- p751/arith_arm64.s:12
  CMP0 (.reg (A 2)),
  -- p751/arith_arm64.s:14
  MOVD (.mem (A 0) 0) (.reg (A 3)),
  MOVD (.mem (A 0) 1) (.reg (A 4)),
  -- p751/arith_arm64.s:15
  MOVD (.mem (A 1) 0) (.reg (A 5)),
  MOVD (.mem (A 1) 1) (.reg (A 6)),
  -- p751/arith_arm64.s:16
  CSELEQ (.reg (A 3)) (.reg (A 5)) (.reg (A 7)),
  -- p751/arith_arm64.s:17
  CSELEQ (.reg (A 4)) (.reg (A 6)) (.reg (A 8)),
  -- p751/arith_arm64.s:18
  MOVD (.reg (A 7)) (.mem (A 0) 0),
  MOVD (.reg (A 8)) (.mem (A 0) 1),
  -- p751/arith_arm64.s:19
  CSELNE (.reg (A 3)) (.reg (A 5)) (.reg (A 9)),
  -- p751/arith_arm64.s:20
  CSELNE (.reg (A 4)) (.reg (A 6)) (.reg (A 10)),
  -- p751/arith_arm64.s:21
  MOVD (.reg (A 9)) (.mem (A 1) 0),
  MOVD (.reg (A 10)) (.mem (A 1) 1),
  -- p751/arith_arm64.s:23
  MOVD (.mem (A 0) 2) (.reg (A 3)),
  MOVD (.mem (A 0) 3) (.reg (A 4)),
  -- p751/arith_arm64.s:24
  MOVD (.mem (A 1) 2) (.reg (A 5)),
  MOVD (.mem (A 1) 3) (.reg (A 6)),
  -- p751/arith_arm64.s:25
  CSELEQ (.reg (A 3)) (.reg (A 5)) (.reg (A 7)),
  -- p751/arith_arm64.s:26
  CSELEQ (.reg (A 4)) (.reg (A 6)) (.reg (A 8)),
  -- p751/arith_arm64.s:27
  MOVD (.reg (A 7)) (.mem (A 0) 2),
  MOVD (.reg (A 8)) (.mem (A 0) 3),
  -- p751/arith_arm64.s:28
  CSELNE (.reg (A 3)) (.reg (A 5)) (.reg (A 9)),
  -- p751/arith_arm64.s:29
  CSELNE (.reg (A 4)) (.reg (A 6)) (.reg (A 10)),
  -- p751/arith_arm64.s:30
  MOVD (.reg (A 9)) (.mem (A 1) 2),
  MOVD (.reg (A 10)) (.mem (A 1) 3),
  -- p751/arith_arm64.s:32
  MOVD (.mem (A 0) 4) (.reg (A 3)),
  MOVD (.mem (A 0) 5) (.reg (A 4)),
  -- p751/arith_arm64.s:33
  MOVD (.mem (A 1) 4) (.reg (A 5)),
  MOVD (.mem (A 1) 5) (.reg (A 6)),
  -- p751/arith_arm64.s:34
  CSELEQ (.reg (A 3)) (.reg (A 5)) (.reg (A 7)),
  -- p751/arith_arm64.s:35
  CSELEQ (.reg (A 4)) (.reg (A 6)) (.reg (A 8)),
  -- p751/arith_arm64.s:36
  MOVD (.reg (A 7)) (.mem (A 0) 4),
  MOVD (.reg (A 8)) (.mem (A 0) 5),
  -- p751/arith_arm64.s:37
  CSELNE (.reg (A 3)) (.reg (A 5)) (.reg (A 9)),
  -- p751/arith_arm64.s:38
  CSELNE (.reg (A 4)) (.reg (A 6)) (.reg (A 10)),
  -- p751/arith_arm64.s:39
  MOVD (.reg (A 9)) (.mem (A 1) 4),
  MOVD (.reg (A 10)) (.mem (A 1) 5),
  -- p751/arith_arm64.s:41
  MOVD (.mem (A 0) 6) (.reg (A 3)),
  MOVD (.mem (A 0) 7) (.reg (A 4)),
  -- p751/arith_arm64.s:42
  MOVD (.mem (A 1) 6) (.reg (A 5)),
  MOVD (.mem (A 1) 7) (.reg (A 6)),
  -- p751/arith_arm64.s:43
  CSELEQ (.reg (A 3)) (.reg (A 5)) (.reg (A 7)),
  -- p751/arith_arm64.s:44
  CSELEQ (.reg (A 4)) (.reg (A 6)) (.reg (A 8)),
  -- p751/arith_arm64.s:45
  MOVD (.reg (A 7)) (.mem (A 0) 6),
  MOVD (.reg (A 8)) (.mem (A 0) 7),
  -- p751/arith_arm64.s:46
  CSELNE (.reg (A 3)) (.reg (A 5)) (.reg (A 9)),
  -- p751/arith_arm64.s:47
  CSELNE (.reg (A 4)) (.reg (A 6)) (.reg (A 10)),
  -- p751/arith_arm64.s:48
  MOVD (.reg (A 9)) (.mem (A 1) 6),
  MOVD (.reg (A 10)) (.mem (A 1) 7),
  -- p751/arith_arm64.s:50
  MOVD (.mem (A 0) 8) (.reg (A 3)),
  MOVD (.mem (A 0) 9) (.reg (A 4)),
  -- p751/arith_arm64.s:51
  MOVD (.mem (A 1) 8) (.reg (A 5)),
  MOVD (.mem (A 1) 9) (.reg (A 6)),
  -- p751/arith_arm64.s:52
  CSELEQ (.reg (A 3)) (.reg (A 5)) (.reg (A 7)),
  -- p751/arith_arm64.s:53
  CSELEQ (.reg (A 4)) (.reg (A 6)) (.reg (A 8)),
  -- p751/arith_arm64.s:54
  MOVD (.reg (A 7)) (.mem (A 0) 8),
  MOVD (.reg (A 8)) (.mem (A 0) 9),
  -- p751/arith_arm64.s:55
  CSELNE (.reg (A 3)) (.reg (A 5)) (.reg (A 9)),
  -- p751/arith_arm64.s:56
  CSELNE (.reg (A 4)) (.reg (A 6)) (.reg (A 10)),
  -- p751/arith_arm64.s:57
  MOVD (.reg (A 9)) (.mem (A 1) 8),
  MOVD (.reg (A 10)) (.mem (A 1) 9),
  -- p751/arith_arm64.s:59
  MOVD (.mem (A 0) 10) (.reg (A 3)),
  MOVD (.mem (A 0) 11) (.reg (A 4)),
  -- p751/arith_arm64.s:60
  MOVD (.mem (A 1) 10) (.reg (A 5)),
  MOVD (.mem (A 1) 11) (.reg (A 6)),
  -- p751/arith_arm64.s:61
  CSELEQ (.reg (A 3)) (.reg (A 5)) (.reg (A 7)),
  -- p751/arith_arm64.s:62
  CSELEQ (.reg (A 4)) (.reg (A 6)) (.reg (A 8)),
  -- p751/arith_arm64.s:63
  MOVD (.reg (A 7)) (.mem (A 0) 10),
  MOVD (.reg (A 8)) (.mem (A 0) 11),
  -- p751/arith_arm64.s:64
  CSELNE (.reg (A 3)) (.reg (A 5)) (.reg (A 9)),
  -- p751/arith_arm64.s:65
  CSELNE (.reg (A 4)) (.reg (A 6)) (.reg (A 10)),
  -- p751/arith_arm64.s:66
  MOVD (.reg (A 9)) (.mem (A 1) 10),
  MOVD (.reg (A 10)) (.mem (A 1) 11)
  ]

def cswap : Routine := { code := cswapCode, frame := 0, glob := [] }

/-- p751/arith_arm64.s:71-154 `addP751` -/
def addCode : List Instr := [
  -- p751/arith_arm64.s:71
  MOVD (.mem FP 0) (.reg (A 2)),
  -- p751/arith_arm64.s:72
  MOVD (.mem FP 1) (.reg (A 0)),
  -- p751/arith_arm64.s:73
  MOVD (.mem FP 2) (.reg (A 1)),
  -- p751/arith_arm64.s:77
  MOVD (.mem (A 0) 0) (.reg (A 3)),
  MOVD (.mem (A 0) 1) (.reg (A 4)),
  -- p751/arith_arm64.s:78
  MOVD (.mem (A 1) 0) (.reg (A 15)),
  MOVD (.mem (A 1) 1) (.reg (A 16)),
  -- p751/arith_arm64.s:79
  MOVD (.mem (A 0) 2) (.reg (A 5)),
  MOVD (.mem (A 0) 3) (.reg (A 6)),
  -- p751/arith_arm64.s:80
  MOVD (.mem (A 1) 2) (.reg (A 17)),
  MOVD (.mem (A 1) 3) (.reg (A 19)),
  -- p751/arith_arm64.s:81
  ADDS (.reg (A 15)) (.reg (A 3)) (.reg (A 3)),
  -- p751/arith_arm64.s:82
  ADCS (.reg (A 16)) (.reg (A 4)) (.reg (A 4)),
  -- p751/arith_arm64.s:83
  ADCS (.reg (A 17)) (.reg (A 5)) (.reg (A 5)),
  -- p751/arith_arm64.s:84
  ADCS (.reg (A 19)) (.reg (A 6)) (.reg (A 6)),
  -- p751/arith_arm64.s:86
  MOVD (.mem (A 0) 4) (.reg (A 7)),
  MOVD (.mem (A 0) 5) (.reg (A 8)),
  -- p751/arith_arm64.s:87
  MOVD (.mem (A 1) 4) (.reg (A 15)),
  MOVD (.mem (A 1) 5) (.reg (A 16)),
  -- p751/arith_arm64.s:88
  MOVD (.mem (A 0) 6) (.reg (A 9)),
  MOVD (.mem (A 0) 7) (.reg (A 10)),
  -- p751/arith_arm64.s:89
  MOVD (.mem (A 1) 6) (.reg (A 17)),
  MOVD (.mem (A 1) 7) (.reg (A 19)),
  -- p751/arith_arm64.s:90
  ADCS (.reg (A 15)) (.reg (A 7)) (.reg (A 7)),
  -- p751/arith_arm64.s:91
  ADCS (.reg (A 16)) (.reg (A 8)) (.reg (A 8)),
  -- p751/arith_arm64.s:92
  ADCS (.reg (A 17)) (.reg (A 9)) (.reg (A 9)),
  -- p751/arith_arm64.s:93
  ADCS (.reg (A 19)) (.reg (A 10)) (.reg (A 10)),
  -- p751/arith_arm64.s:95
  MOVD (.mem (A 0) 8) (.reg (A 11)),
  MOVD (.mem (A 0) 9) (.reg (A 12)),
  -- p751/arith_arm64.s:96
  MOVD (.mem (A 1) 8) (.reg (A 15)),
  MOVD (.mem (A 1) 9) (.reg (A 16)),
  -- p751/arith_arm64.s:97
  MOVD (.mem (A 0) 10) (.reg (A 13)),
  MOVD (.mem (A 0) 11) (.reg (A 14)),
  -- p751/arith_arm64.s:98
  MOVD (.mem (A 1) 10) (.reg (A 17)),
  MOVD (.mem (A 1) 11) (.reg (A 19)),
  -- p751/arith_arm64.s:99
  ADCS (.reg (A 15)) (.reg (A 11)) (.reg (A 11)),
  -- p751/arith_arm64.s:100
  ADCS (.reg (A 16)) (.reg (A 12)) (.reg (A 12)),
  -- p751/arith_arm64.s:101
  ADCS (.reg (A 17)) (.reg (A 13)) (.reg (A 13)),
  -- p751/arith_arm64.s:102
  ADC (.reg (A 19)) (.reg (A 14)) (.reg (A 14)),
  -- p751/arith_arm64.s:105
  MOVD (.glob 2 0) (.reg (A 15)),
  MOVD (.glob 2 1) (.reg (A 16)),
  -- p751/arith_arm64.s:106
  SUBS (.reg (A 15)) (.reg (A 3)) (.reg (A 3)),
  -- p751/arith_arm64.s:107
  SBCS (.reg (A 16)) (.reg (A 4)) (.reg (A 4)),
  -- p751/arith_arm64.s:108
  MOVD (.glob 2 5) (.reg (A 17)),
  MOVD (.glob 2 6) (.reg (A 19)),
  -- p751/arith_arm64.s:109
  SBCS (.reg (A 16)) (.reg (A 5)) (.reg (A 5)),
  -- p751/arith_arm64.s:110
  SBCS (.reg (A 16)) (.reg (A 6)) (.reg (A 6)),
  -- p751/arith_arm64.s:111
  SBCS (.reg (A 16)) (.reg (A 7)) (.reg (A 7)),
  -- p751/arith_arm64.s:112
  MOVD (.glob 2 7) (.reg (A 20)),
  MOVD (.glob 2 8) (.reg (A 21)),
  -- p751/arith_arm64.s:113
  SBCS (.reg (A 17)) (.reg (A 8)) (.reg (A 8)),
  -- p751/arith_arm64.s:114
  SBCS (.reg (A 19)) (.reg (A 9)) (.reg (A 9)),
  -- p751/arith_arm64.s:115
  MOVD (.glob 2 9) (.reg (A 22)),
  MOVD (.glob 2 10) (.reg (A 23)),
  -- p751/arith_arm64.s:116
  SBCS (.reg (A 20)) (.reg (A 10)) (.reg (A 10)),
  -- p751/arith_arm64.s:117
  SBCS (.reg (A 21)) (.reg (A 11)) (.reg (A 11)),
  -- p751/arith_arm64.s:118
  MOVD (.glob 2 11) (.reg (A 24)),
  -- p751/arith_arm64.s:119
  SBCS (.reg (A 22)) (.reg (A 12)) (.reg (A 12)),
  -- p751/arith_arm64.s:120
  SBCS (.reg (A 23)) (.reg (A 13)) (.reg (A 13)),
  -- p751/arith_arm64.s:121
  SBCS (.reg (A 24)) (.reg (A 14)) (.reg (A 14)),
  -- p751/arith_arm64.s:122
  SBC (.imm 0) (.imm 0) (.reg (A 25)),
  -- p751/arith_arm64.s:125
  AND (.reg (A 25)) (.reg (A 15)) (.reg (A 15)),
  -- p751/arith_arm64.s:126
  AND (.reg (A 25)) (.reg (A 16)) (.reg (A 16)),
  -- p751/arith_arm64.s:127
  AND (.reg (A 25)) (.reg (A 17)) (.reg (A 17)),
  -- p751/arith_arm64.s:128
  AND (.reg (A 25)) (.reg (A 19)) (.reg (A 19)),
  -- p751/arith_arm64.s:129
  AND (.reg (A 25)) (.reg (A 20)) (.reg (A 20)),
  -- p751/arith_arm64.s:130
  AND (.reg (A 25)) (.reg (A 21)) (.reg (A 21)),
  -- p751/arith_arm64.s:131
  AND (.reg (A 25)) (.reg (A 22)) (.reg (A 22)),
  -- p751/arith_arm64.s:132
  AND (.reg (A 25)) (.reg (A 23)) (.reg (A 23)),
  -- p751/arith_arm64.s:133
  AND (.reg (A 25)) (.reg (A 24)) (.reg (A 24)),
  -- p751/arith_arm64.s:135
  ADDS (.reg (A 15)) (.reg (A 3)) (.reg (A 3)),
  -- p751/arith_arm64.s:136
  ADCS (.reg (A 16)) (.reg (A 4)) (.reg (A 4)),
  -- p751/arith_arm64.s:137
  MOVD (.reg (A 3)) (.mem (A 2) 0),
  MOVD (.reg (A 4)) (.mem (A 2) 1),
  -- p751/arith_arm64.s:138
  ADCS (.reg (A 16)) (.reg (A 5)) (.reg (A 5)),
  -- p751/arith_arm64.s:139
  ADCS (.reg (A 16)) (.reg (A 6)) (.reg (A 6)),
  -- p751/arith_arm64.s:140
  MOVD (.reg (A 5)) (.mem (A 2) 2),
  MOVD (.reg (A 6)) (.mem (A 2) 3),
  -- p751/arith_arm64.s:141
  ADCS (.reg (A 16)) (.reg (A 7)) (.reg (A 7)),
  -- p751/arith_arm64.s:142
  ADCS (.reg (A 17)) (.reg (A 8)) (.reg (A 8)),
  -- p751/arith_arm64.s:143
  MOVD (.reg (A 7)) (.mem (A 2) 4),
  MOVD (.reg (A 8)) (.mem (A 2) 5),
  -- p751/arith_arm64.s:144
  ADCS (.reg (A 19)) (.reg (A 9)) (.reg (A 9)),
  -- p751/arith_arm64.s:145
  ADCS (.reg (A 20)) (.reg (A 10)) (.reg (A 10)),
  -- p751/arith_arm64.s:146
  MOVD (.reg (A 9)) (.mem (A 2) 6),
  MOVD (.reg (A 10)) (.mem (A 2) 7),
  -- p751/arith_arm64.s:147
  ADCS (.reg (A 21)) (.reg (A 11)) (.reg (A 11)),
  -- p751/arith_arm64.s:148
  ADCS (.reg (A 22)) (.reg (A 12)) (.reg (A 12)),
  -- p751/arith_arm64.s:149
  MOVD (.reg (A 11)) (.mem (A 2) 8),
  MOVD (.reg (A 12)) (.mem (A 2) 9),
  -- p751/arith_arm64.s:150
  ADCS (.reg (A 23)) (.reg (A 13)) (.reg (A 13)),
  -- p751/arith_arm64.s:151
  ADC (.reg (A 24)) (.reg (A 14)) (.reg (A 14)),
  -- p751/arith_arm64.s:152
  MOVD (.reg (A 13)) (.mem (A 2) 10),
  MOVD (.reg (A 14)) (.mem (A 2) 11)
  ]

def add : Routine := { code := addCode, frame := 0, glob := [px2] }

/-- p751/arith_arm64.s:157-229 `subP751` -/
def subCode : List Instr := [
  -- p751/arith_arm64.s:157
  MOVD (.mem FP 0) (.reg (A 2)),
  -- p751/arith_arm64.s:158
  MOVD (.mem FP 1) (.reg (A 0)),
  -- p751/arith_arm64.s:159
  MOVD (.mem FP 2) (.reg (A 1)),
  -- p751/arith_arm64.s:163
  MOVD (.mem (A 0) 0) (.reg (A 3)),
  MOVD (.mem (A 0) 1) (.reg (A 4)),
  -- p751/arith_arm64.s:164
  MOVD (.mem (A 1) 0) (.reg (A 15)),
  MOVD (.mem (A 1) 1) (.reg (A 16)),
  -- p751/arith_arm64.s:165
  MOVD (.mem (A 0) 2) (.reg (A 5)),
  MOVD (.mem (A 0) 3) (.reg (A 6)),
  -- p751/arith_arm64.s:166
  MOVD (.mem (A 1) 2) (.reg (A 17)),
  MOVD (.mem (A 1) 3) (.reg (A 19)),
  -- p751/arith_arm64.s:167
  SUBS (.reg (A 15)) (.reg (A 3)) (.reg (A 3)),
  -- p751/arith_arm64.s:168
  SBCS (.reg (A 16)) (.reg (A 4)) (.reg (A 4)),
  -- p751/arith_arm64.s:169
  SBCS (.reg (A 17)) (.reg (A 5)) (.reg (A 5)),
  -- p751/arith_arm64.s:170
  SBCS (.reg (A 19)) (.reg (A 6)) (.reg (A 6)),
  -- p751/arith_arm64.s:172
  MOVD (.mem (A 0) 4) (.reg (A 7)),
  MOVD (.mem (A 0) 5) (.reg (A 8)),
  -- p751/arith_arm64.s:173
  MOVD (.mem (A 1) 4) (.reg (A 15)),
  MOVD (.mem (A 1) 5) (.reg (A 16)),
  -- p751/arith_arm64.s:174
  MOVD (.mem (A 0) 6) (.reg (A 9)),
  MOVD (.mem (A 0) 7) (.reg (A 10)),
  -- p751/arith_arm64.s:175
  MOVD (.mem (A 1) 6) (.reg (A 17)),
  MOVD (.mem (A 1) 7) (.reg (A 19)),
  -- p751/arith_arm64.s:176
  SBCS (.reg (A 15)) (.reg (A 7)) (.reg (A 7)),
  -- p751/arith_arm64.s:177
  SBCS (.reg (A 16)) (.reg (A 8)) (.reg (A 8)),
  -- p751/arith_arm64.s:178
  SBCS (.reg (A 17)) (.reg (A 9)) (.reg (A 9)),
  -- p751/arith_arm64.s:179
  SBCS (.reg (A 19)) (.reg (A 10)) (.reg (A 10)),
  -- p751/arith_arm64.s:181
  MOVD (.mem (A 0) 8) (.reg (A 11)),
  MOVD (.mem (A 0) 9) (.reg (A 12)),
  -- p751/arith_arm64.s:182
  MOVD (.mem (A 1) 8) (.reg (A 15)),
  MOVD (.mem (A 1) 9) (.reg (A 16)),
  -- p751/arith_arm64.s:183
  MOVD (.mem (A 0) 10) (.reg (A 13)),
  MOVD (.mem (A 0) 11) (.reg (A 14)),
  -- p751/arith_arm64.s:184
  MOVD (.mem (A 1) 10) (.reg (A 17)),
  MOVD (.mem (A 1) 11) (.reg (A 19)),
  -- p751/arith_arm64.s:185
  SBCS (.reg (A 15)) (.reg (A 11)) (.reg (A 11)),
  -- p751/arith_arm64.s:186
  SBCS (.reg (A 16)) (.reg (A 12)) (.reg (A 12)),
  -- p751/arith_arm64.s:187
  SBCS (.reg (A 17)) (.reg (A 13)) (.reg (A 13)),
  -- p751/arith_arm64.s:188
  SBCS (.reg (A 19)) (.reg (A 14)) (.reg (A 14)),
  -- p751/arith_arm64.s:189
  SBC (.imm 0) (.imm 0) (.reg (A 15)),
  -- p751/arith_arm64.s:192
  MOVD (.glob 2 0) (.reg (A 16)),
  MOVD (.glob 2 1) (.reg (A 17)),
  -- p751/arith_arm64.s:193
  AND (.reg (A 15)) (.reg (A 16)) (.reg (A 16)),
  -- p751/arith_arm64.s:194
  AND (.reg (A 15)) (.reg (A 17)) (.reg (A 17)),
  -- p751/arith_arm64.s:195
  MOVD (.glob 2 5) (.reg (A 19)),
  MOVD (.glob 2 6) (.reg (A 20)),
  -- p751/arith_arm64.s:196
  AND (.reg (A 15)) (.reg (A 19)) (.reg (A 19)),
  -- p751/arith_arm64.s:197
  AND (.reg (A 15)) (.reg (A 20)) (.reg (A 20)),
  -- p751/arith_arm64.s:199
  ADDS (.reg (A 16)) (.reg (A 3)) (.reg (A 3)),
  -- p751/arith_arm64.s:200
  ADCS (.reg (A 17)) (.reg (A 4)) (.reg (A 4)),
  -- p751/arith_arm64.s:201
  MOVD (.reg (A 3)) (.mem (A 2) 0),
  MOVD (.reg (A 4)) (.mem (A 2) 1),
  -- p751/arith_arm64.s:202
  ADCS (.reg (A 17)) (.reg (A 5)) (.reg (A 5)),
  -- p751/arith_arm64.s:203
  ADCS (.reg (A 17)) (.reg (A 6)) (.reg (A 6)),
  -- p751/arith_arm64.s:204
  MOVD (.reg (A 5)) (.mem (A 2) 2),
  MOVD (.reg (A 6)) (.mem (A 2) 3),
  -- p751/arith_arm64.s:205
  ADCS (.reg (A 17)) (.reg (A 7)) (.reg (A 7)),
  -- p751/arith_arm64.s:206
  ADCS (.reg (A 19)) (.reg (A 8)) (.reg (A 8)),
  -- p751/arith_arm64.s:207
  MOVD (.reg (A 7)) (.mem (A 2) 4),
  MOVD (.reg (A 8)) (.mem (A 2) 5),
  -- p751/arith_arm64.s:208
  ADCS (.reg (A 20)) (.reg (A 9)) (.reg (A 9)),
  -- p751/arith_arm64.s:210
  MOVD (.glob 2 7) (.reg (A 16)),
  MOVD (.glob 2 8) (.reg (A 17)),
  -- p751/arith_arm64.s:211
  AND (.reg (A 15)) (.reg (A 16)) (.reg (A 16)),
  -- p751/arith_arm64.s:212
  AND (.reg (A 15)) (.reg (A 17)) (.reg (A 17)),
  -- p751/arith_arm64.s:213
  MOVD (.glob 2 9) (.reg (A 19)),
  MOVD (.glob 2 10) (.reg (A 20)),
  -- p751/arith_arm64.s:214
  AND (.reg (A 15)) (.reg (A 19)) (.reg (A 19)),
  -- p751/arith_arm64.s:215
  AND (.reg (A 15)) (.reg (A 20)) (.reg (A 20)),
  -- p751/arith_arm64.s:217
  ADCS (.reg (A 16)) (.reg (A 10)) (.reg (A 10)),
  -- p751/arith_arm64.s:218
  MOVD (.reg (A 9)) (.mem (A 2) 6),
  MOVD (.reg (A 10)) (.mem (A 2) 7),
  -- p751/arith_arm64.s:219
  ADCS (.reg (A 17)) (.reg (A 11)) (.reg (A 11)),
  -- p751/arith_arm64.s:220
  ADCS (.reg (A 19)) (.reg (A 12)) (.reg (A 12)),
  -- p751/arith_arm64.s:221
  MOVD (.reg (A 11)) (.mem (A 2) 8),
  MOVD (.reg (A 12)) (.mem (A 2) 9),
  -- p751/arith_arm64.s:222
  ADCS (.reg (A 20)) (.reg (A 13)) (.reg (A 13)),
  -- p751/arith_arm64.s:224
  MOVD (.glob 2 11) (.reg (A 16)),
  -- p751/arith_arm64.s:225
  AND (.reg (A 15)) (.reg (A 16)) (.reg (A 16)),
  -- p751/arith_arm64.s:226
  ADC (.reg (A 16)) (.reg (A 14)) (.reg (A 14)),
  -- p751/arith_arm64.s:227
  MOVD (.reg (A 13)) (.mem (A 2) 10),
  MOVD (.reg (A 14)) (.mem (A 2) 11)
  ]

def sub : Routine := { code := subCode, frame := 0, glob := [px2] }

/-- p751/arith_arm64.s:232-302 `adlP751` -/
def adlCode : List Instr := [
  -- p751/arith_arm64.s:232
  MOVD (.mem FP 0) (.reg (A 2)),
  -- p751/arith_arm64.s:233
  MOVD (.mem FP 1) (.reg (A 0)),
  -- p751/arith_arm64.s:234
  MOVD (.mem FP 2) (.reg (A 1)),
  -- p751/arith_arm64.s:236
  MOVD (.mem (A 0) 0) (.reg (A 3)),
  MOVD (.mem (A 0) 1) (.reg (A 4)),
  -- p751/arith_arm64.s:237
  MOVD (.mem (A 1) 0) (.reg (A 15)),
  MOVD (.mem (A 1) 1) (.reg (A 16)),
  -- p751/arith_arm64.s:238
  MOVD (.mem (A 0) 2) (.reg (A 5)),
  MOVD (.mem (A 0) 3) (.reg (A 6)),
  -- p751/arith_arm64.s:239
  MOVD (.mem (A 1) 2) (.reg (A 17)),
  MOVD (.mem (A 1) 3) (.reg (A 19)),
  -- p751/arith_arm64.s:240
  ADDS (.reg (A 15)) (.reg (A 3)) (.reg (A 3)),
  -- p751/arith_arm64.s:241
  ADCS (.reg (A 16)) (.reg (A 4)) (.reg (A 4)),
  -- p751/arith_arm64.s:242
  MOVD (.reg (A 3)) (.mem (A 2) 0),
  MOVD (.reg (A 4)) (.mem (A 2) 1),
  -- p751/arith_arm64.s:243
  ADCS (.reg (A 17)) (.reg (A 5)) (.reg (A 5)),
  -- p751/arith_arm64.s:244
  ADCS (.reg (A 19)) (.reg (A 6)) (.reg (A 6)),
  -- p751/arith_arm64.s:245
  MOVD (.reg (A 5)) (.mem (A 2) 2),
  MOVD (.reg (A 6)) (.mem (A 2) 3),
  -- p751/arith_arm64.s:247
  MOVD (.mem (A 0) 4) (.reg (A 7)),
  MOVD (.mem (A 0) 5) (.reg (A 8)),
  -- p751/arith_arm64.s:248
  MOVD (.mem (A 1) 4) (.reg (A 15)),
  MOVD (.mem (A 1) 5) (.reg (A 16)),
  -- p751/arith_arm64.s:249
  MOVD (.mem (A 0) 6) (.reg (A 9)),
  MOVD (.mem (A 0) 7) (.reg (A 10)),
  -- p751/arith_arm64.s:250
  MOVD (.mem (A 1) 6) (.reg (A 17)),
  MOVD (.mem (A 1) 7) (.reg (A 19)),
  -- p751/arith_arm64.s:251
  ADCS (.reg (A 15)) (.reg (A 7)) (.reg (A 7)),
  -- p751/arith_arm64.s:252
  ADCS (.reg (A 16)) (.reg (A 8)) (.reg (A 8)),
  -- p751/arith_arm64.s:253
  MOVD (.reg (A 7)) (.mem (A 2) 4),
  MOVD (.reg (A 8)) (.mem (A 2) 5),
  -- p751/arith_arm64.s:254
  ADCS (.reg (A 17)) (.reg (A 9)) (.reg (A 9)),
  -- p751/arith_arm64.s:255
  ADCS (.reg (A 19)) (.reg (A 10)) (.reg (A 10)),
  -- p751/arith_arm64.s:256
  MOVD (.reg (A 9)) (.mem (A 2) 6),
  MOVD (.reg (A 10)) (.mem (A 2) 7),
  -- p751/arith_arm64.s:258
  MOVD (.mem (A 0) 8) (.reg (A 11)),
  MOVD (.mem (A 0) 9) (.reg (A 12)),
  -- p751/arith_arm64.s:259
  MOVD (.mem (A 1) 8) (.reg (A 15)),
  MOVD (.mem (A 1) 9) (.reg (A 16)),
  -- p751/arith_arm64.s:260
  MOVD (.mem (A 0) 10) (.reg (A 13)),
  MOVD (.mem (A 0) 11) (.reg (A 14)),
  -- p751/arith_arm64.s:261
  MOVD (.mem (A 1) 10) (.reg (A 17)),
  MOVD (.mem (A 1) 11) (.reg (A 19)),
  -- p751/arith_arm64.s:262
  ADCS (.reg (A 15)) (.reg (A 11)) (.reg (A 11)),
  -- p751/arith_arm64.s:263
  ADCS (.reg (A 16)) (.reg (A 12)) (.reg (A 12)),
  -- p751/arith_arm64.s:264
  MOVD (.reg (A 11)) (.mem (A 2) 8),
  MOVD (.reg (A 12)) (.mem (A 2) 9),
  -- p751/arith_arm64.s:265
  ADCS (.reg (A 17)) (.reg (A 13)) (.reg (A 13)),
  -- p751/arith_arm64.s:266
  ADCS (.reg (A 19)) (.reg (A 14)) (.reg (A 14)),
  -- p751/arith_arm64.s:267
  MOVD (.reg (A 13)) (.mem (A 2) 10),
  MOVD (.reg (A 14)) (.mem (A 2) 11),
  -- p751/arith_arm64.s:269
  MOVD (.mem (A 0) 12) (.reg (A 3)),
  MOVD (.mem (A 0) 13) (.reg (A 4)),
  -- p751/arith_arm64.s:270
  MOVD (.mem (A 1) 12) (.reg (A 15)),
  MOVD (.mem (A 1) 13) (.reg (A 16)),
  -- p751/arith_arm64.s:271
  MOVD (.mem (A 0) 14) (.reg (A 5)),
  MOVD (.mem (A 0) 15) (.reg (A 6)),
  -- p751/arith_arm64.s:272
  MOVD (.mem (A 1) 14) (.reg (A 17)),
  MOVD (.mem (A 1) 15) (.reg (A 19)),
  -- p751/arith_arm64.s:273
  ADCS (.reg (A 15)) (.reg (A 3)) (.reg (A 3)),
  -- p751/arith_arm64.s:274
  ADCS (.reg (A 16)) (.reg (A 4)) (.reg (A 4)),
  -- p751/arith_arm64.s:275
  MOVD (.reg (A 3)) (.mem (A 2) 12),
  MOVD (.reg (A 4)) (.mem (A 2) 13),
  -- p751/arith_arm64.s:276
  ADCS (.reg (A 17)) (.reg (A 5)) (.reg (A 5)),
  -- p751/arith_arm64.s:277
  ADCS (.reg (A 19)) (.reg (A 6)) (.reg (A 6)),
  -- p751/arith_arm64.s:278
  MOVD (.reg (A 5)) (.mem (A 2) 14),
  MOVD (.reg (A 6)) (.mem (A 2) 15),
  -- p751/arith_arm64.s:280
  MOVD (.mem (A 0) 16) (.reg (A 7)),
  MOVD (.mem (A 0) 17) (.reg (A 8)),
  -- p751/arith_arm64.s:281
  MOVD (.mem (A 1) 16) (.reg (A 15)),
  MOVD (.mem (A 1) 17) (.reg (A 16)),
  -- p751/arith_arm64.s:282
  MOVD (.mem (A 0) 18) (.reg (A 9)),
  MOVD (.mem (A 0) 19) (.reg (A 10)),
  -- p751/arith_arm64.s:283
  MOVD (.mem (A 1) 18) (.reg (A 17)),
  MOVD (.mem (A 1) 19) (.reg (A 19)),
  -- p751/arith_arm64.s:284
  ADCS (.reg (A 15)) (.reg (A 7)) (.reg (A 7)),
  -- p751/arith_arm64.s:285
  ADCS (.reg (A 16)) (.reg (A 8)) (.reg (A 8)),
  -- p751/arith_arm64.s:286
  MOVD (.reg (A 7)) (.mem (A 2) 16),
  MOVD (.reg (A 8)) (.mem (A 2) 17),
  -- p751/arith_arm64.s:287
  ADCS (.reg (A 17)) (.reg (A 9)) (.reg (A 9)),
  -- p751/arith_arm64.s:288
  ADCS (.reg (A 19)) (.reg (A 10)) (.reg (A 10)),
  -- p751/arith_arm64.s:289
  MOVD (.reg (A 9)) (.mem (A 2) 18),
  MOVD (.reg (A 10)) (.mem (A 2) 19),
  -- p751/arith_arm64.s:291
  MOVD (.mem (A 0) 20) (.reg (A 11)),
  MOVD (.mem (A 0) 21) (.reg (A 12)),
  -- p751/arith_arm64.s:292
  MOVD (.mem (A 1) 20) (.reg (A 15)),
  MOVD (.mem (A 1) 21) (.reg (A 16)),
  -- p751/arith_arm64.s:293
  MOVD (.mem (A 0) 22) (.reg (A 13)),
  MOVD (.mem (A 0) 23) (.reg (A 14)),
  -- p751/arith_arm64.s:294
  MOVD (.mem (A 1) 22) (.reg (A 17)),
  MOVD (.mem (A 1) 23) (.reg (A 19)),
  -- p751/arith_arm64.s:295
  ADCS (.reg (A 15)) (.reg (A 11)) (.reg (A 11)),
  -- p751/arith_arm64.s:296
  ADCS (.reg (A 16)) (.reg (A 12)) (.reg (A 12)),
  -- p751/arith_arm64.s:297
  MOVD (.reg (A 11)) (.mem (A 2) 20),
  MOVD (.reg (A 12)) (.mem (A 2) 21),
  -- p751/arith_arm64.s:298
  ADCS (.reg (A 17)) (.reg (A 13)) (.reg (A 13)),
  -- p751/arith_arm64.s:299
  ADC (.reg (A 19)) (.reg (A 14)) (.reg (A 14)),
  -- p751/arith_arm64.s:300
  MOVD (.reg (A 13)) (.mem (A 2) 22),
  MOVD (.reg (A 14)) (.mem (A 2) 23)
  ]

def adl : Routine := { code := adlCode, frame := 0, glob := [] }

/-- p751/arith_arm64.s:305-407 `sulP751` -/
def sulCode : List Instr := [
  -- p751/arith_arm64.s:305
  MOVD (.mem FP 0) (.reg (A 2)),
  -- p751/arith_arm64.s:306
  MOVD (.mem FP 1) (.reg (A 0)),
  -- p751/arith_arm64.s:307
  MOVD (.mem FP 2) (.reg (A 1)),
  -- p751/arith_arm64.s:309
  MOVD (.mem (A 0) 0) (.reg (A 3)),
  MOVD (.mem (A 0) 1) (.reg (A 4)),
  -- p751/arith_arm64.s:310
  MOVD (.mem (A 1) 0) (.reg (A 15)),
  MOVD (.mem (A 1) 1) (.reg (A 16)),
  -- p751/arith_arm64.s:311
  MOVD (.mem (A 0) 2) (.reg (A 5)),
  MOVD (.mem (A 0) 3) (.reg (A 6)),
  -- p751/arith_arm64.s:312
  MOVD (.mem (A 1) 2) (.reg (A 17)),
  MOVD (.mem (A 1) 3) (.reg (A 19)),
  -- p751/arith_arm64.s:313
  SUBS (.reg (A 15)) (.reg (A 3)) (.reg (A 3)),
  -- p751/arith_arm64.s:314
  SBCS (.reg (A 16)) (.reg (A 4)) (.reg (A 4)),
  -- p751/arith_arm64.s:315
  MOVD (.reg (A 3)) (.mem (A 2) 0),
  MOVD (.reg (A 4)) (.mem (A 2) 1),
  -- p751/arith_arm64.s:316
  SBCS (.reg (A 17)) (.reg (A 5)) (.reg (A 5)),
  -- p751/arith_arm64.s:317
  SBCS (.reg (A 19)) (.reg (A 6)) (.reg (A 6)),
  -- p751/arith_arm64.s:318
  MOVD (.reg (A 5)) (.mem (A 2) 2),
  MOVD (.reg (A 6)) (.mem (A 2) 3),
  -- p751/arith_arm64.s:320
  MOVD (.mem (A 0) 4) (.reg (A 7)),
  MOVD (.mem (A 0) 5) (.reg (A 8)),
  -- p751/arith_arm64.s:321
  MOVD (.mem (A 1) 4) (.reg (A 15)),
  MOVD (.mem (A 1) 5) (.reg (A 16)),
  -- p751/arith_arm64.s:322
  MOVD (.mem (A 0) 6) (.reg (A 9)),
  MOVD (.mem (A 0) 7) (.reg (A 10)),
  -- p751/arith_arm64.s:323
  MOVD (.mem (A 1) 6) (.reg (A 17)),
  MOVD (.mem (A 1) 7) (.reg (A 19)),
  -- p751/arith_arm64.s:324
  SBCS (.reg (A 15)) (.reg (A 7)) (.reg (A 7)),
  -- p751/arith_arm64.s:325
  SBCS (.reg (A 16)) (.reg (A 8)) (.reg (A 8)),
  -- p751/arith_arm64.s:326
  MOVD (.reg (A 7)) (.mem (A 2) 4),
  MOVD (.reg (A 8)) (.mem (A 2) 5),
  -- p751/arith_arm64.s:327
  SBCS (.reg (A 17)) (.reg (A 9)) (.reg (A 9)),
  -- p751/arith_arm64.s:328
  SBCS (.reg (A 19)) (.reg (A 10)) (.reg (A 10)),
  -- p751/arith_arm64.s:329
  MOVD (.reg (A 9)) (.mem (A 2) 6),
  MOVD (.reg (A 10)) (.mem (A 2) 7),
  -- p751/arith_arm64.s:331
  MOVD (.mem (A 0) 8) (.reg (A 11)),
  MOVD (.mem (A 0) 9) (.reg (A 12)),
  -- p751/arith_arm64.s:332
  MOVD (.mem (A 1) 8) (.reg (A 15)),
  MOVD (.mem (A 1) 9) (.reg (A 16)),
  -- p751/arith_arm64.s:333
  MOVD (.mem (A 0) 10) (.reg (A 13)),
  MOVD (.mem (A 0) 11) (.reg (A 14)),
  -- p751/arith_arm64.s:334
  MOVD (.mem (A 1) 10) (.reg (A 17)),
  MOVD (.mem (A 1) 11) (.reg (A 19)),
  -- p751/arith_arm64.s:335
  SBCS (.reg (A 15)) (.reg (A 11)) (.reg (A 11)),
  -- p751/arith_arm64.s:336
  SBCS (.reg (A 16)) (.reg (A 12)) (.reg (A 12)),
  -- p751/arith_arm64.s:337
  MOVD (.reg (A 11)) (.mem (A 2) 8),
  MOVD (.reg (A 12)) (.mem (A 2) 9),
  -- p751/arith_arm64.s:338
  SBCS (.reg (A 17)) (.reg (A 13)) (.reg (A 13)),
  -- p751/arith_arm64.s:339
  SBCS (.reg (A 19)) (.reg (A 14)) (.reg (A 14)),
  -- p751/arith_arm64.s:340
  MOVD (.reg (A 13)) (.mem (A 2) 10),
  MOVD (.reg (A 14)) (.mem (A 2) 11),
  -- p751/arith_arm64.s:342
  MOVD (.mem (A 0) 12) (.reg (A 3)),
  MOVD (.mem (A 0) 13) (.reg (A 4)),
  -- p751/arith_arm64.s:343
  MOVD (.mem (A 1) 12) (.reg (A 15)),
  MOVD (.mem (A 1) 13) (.reg (A 16)),
  -- p751/arith_arm64.s:344
  MOVD (.mem (A 0) 14) (.reg (A 5)),
  MOVD (.mem (A 0) 15) (.reg (A 6)),
  -- p751/arith_arm64.s:345
  MOVD (.mem (A 1) 14) (.reg (A 17)),
  MOVD (.mem (A 1) 15) (.reg (A 19)),
  -- p751/arith_arm64.s:346
  SBCS (.reg (A 15)) (.reg (A 3)) (.reg (A 3)),
  -- p751/arith_arm64.s:347
  SBCS (.reg (A 16)) (.reg (A 4)) (.reg (A 4)),
  -- p751/arith_arm64.s:348
  SBCS (.reg (A 17)) (.reg (A 5)) (.reg (A 5)),
  -- p751/arith_arm64.s:349
  SBCS (.reg (A 19)) (.reg (A 6)) (.reg (A 6)),
  -- p751/arith_arm64.s:351
  MOVD (.mem (A 0) 16) (.reg (A 7)),
  MOVD (.mem (A 0) 17) (.reg (A 8)),
  -- p751/arith_arm64.s:352
  MOVD (.mem (A 1) 16) (.reg (A 15)),
  MOVD (.mem (A 1) 17) (.reg (A 16)),
  -- p751/arith_arm64.s:353
  MOVD (.mem (A 0) 18) (.reg (A 9)),
  MOVD (.mem (A 0) 19) (.reg (A 10)),
  -- p751/arith_arm64.s:354
  MOVD (.mem (A 1) 18) (.reg (A 17)),
  MOVD (.mem (A 1) 19) (.reg (A 19)),
  -- p751/arith_arm64.s:355
  SBCS (.reg (A 15)) (.reg (A 7)) (.reg (A 7)),
  -- p751/arith_arm64.s:356
  SBCS (.reg (A 16)) (.reg (A 8)) (.reg (A 8)),
  -- p751/arith_arm64.s:357
  SBCS (.reg (A 17)) (.reg (A 9)) (.reg (A 9)),
  -- p751/arith_arm64.s:358
  SBCS (.reg (A 19)) (.reg (A 10)) (.reg (A 10)),
  -- p751/arith_arm64.s:360
  MOVD (.mem (A 0) 20) (.reg (A 11)),
  MOVD (.mem (A 0) 21) (.reg (A 12)),
  -- p751/arith_arm64.s:361
  MOVD (.mem (A 1) 20) (.reg (A 15)),
  MOVD (.mem (A 1) 21) (.reg (A 16)),
  -- p751/arith_arm64.s:362
  MOVD (.mem (A 0) 22) (.reg (A 13)),
  MOVD (.mem (A 0) 23) (.reg (A 14)),
  -- p751/arith_arm64.s:363
  MOVD (.mem (A 1) 22) (.reg (A 17)),
  MOVD (.mem (A 1) 23) (.reg (A 19)),
  -- p751/arith_arm64.s:364
  SBCS (.reg (A 15)) (.reg (A 11)) (.reg (A 11)),
  -- p751/arith_arm64.s:365
  SBCS (.reg (A 16)) (.reg (A 12)) (.reg (A 12)),
  -- p751/arith_arm64.s:366
  SBCS (.reg (A 17)) (.reg (A 13)) (.reg (A 13)),
  -- p751/arith_arm64.s:367
  SBCS (.reg (A 19)) (.reg (A 14)) (.reg (A 14)),
  -- p751/arith_arm64.s:368
  SBC (.imm 0) (.imm 0) (.reg (A 15)),
  -- p751/arith_arm64.s:371
  MOVD (.glob 2 0) (.reg (A 20)),
  -- p751/arith_arm64.s:372
  AND (.reg (A 15)) (.reg (A 20)) (.reg (A 20)),
  -- p751/arith_arm64.s:373
  MOVD (.glob 2 5) (.reg (A 16)),
  MOVD (.glob 2 6) (.reg (A 17)),
  -- p751/arith_arm64.s:374
  ADDS (.reg (A 20)) (.reg (A 3)) (.reg (A 3)),
  -- p751/arith_arm64.s:375
  ADCS (.reg (A 20)) (.reg (A 4)) (.reg (A 4)),
  -- p751/arith_arm64.s:376
  MOVD (.reg (A 3)) (.mem (A 2) 12),
  MOVD (.reg (A 4)) (.mem (A 2) 13),
  -- p751/arith_arm64.s:377
  ADCS (.reg (A 20)) (.reg (A 5)) (.reg (A 5)),
  -- p751/arith_arm64.s:378
  ADCS (.reg (A 20)) (.reg (A 6)) (.reg (A 6)),
  -- p751/arith_arm64.s:379
  MOVD (.reg (A 5)) (.mem (A 2) 14),
  MOVD (.reg (A 6)) (.mem (A 2) 15),
  -- p751/arith_arm64.s:380
  ADCS (.reg (A 20)) (.reg (A 7)) (.reg (A 7)),
  -- p751/arith_arm64.s:382
  MOVD (.glob 2 7) (.reg (A 19)),
  MOVD (.glob 2 8) (.reg (A 20)),
  -- p751/arith_arm64.s:383
  AND (.reg (A 15)) (.reg (A 16)) (.reg (A 16)),
  -- p751/arith_arm64.s:384
  AND (.reg (A 15)) (.reg (A 17)) (.reg (A 17)),
  -- p751/arith_arm64.s:385
  ADCS (.reg (A 16)) (.reg (A 8)) (.reg (A 8)),
  -- p751/arith_arm64.s:386
  MOVD (.reg (A 7)) (.mem (A 2) 16),
  MOVD (.reg (A 8)) (.mem (A 2) 17),
  -- p751/arith_arm64.s:387
  ADCS (.reg (A 17)) (.reg (A 9)) (.reg (A 9)),
  -- p751/arith_arm64.s:389
  MOVD (.glob 2 9) (.reg (A 16)),
  MOVD (.glob 2 10) (.reg (A 17)),
  -- p751/arith_arm64.s:390
  AND (.reg (A 15)) (.reg (A 19)) (.reg (A 19)),
  -- p751/arith_arm64.s:391
  AND (.reg (A 15)) (.reg (A 20)) (.reg (A 20)),
  -- p751/arith_arm64.s:392
  ADCS (.reg (A 19)) (.reg (A 10)) (.reg (A 10)),
  -- p751/arith_arm64.s:393
  MOVD (.reg (A 9)) (.mem (A 2) 18),
  MOVD (.reg (A 10)) (.mem (A 2) 19),
  -- p751/arith_arm64.s:394
  ADCS (.reg (A 20)) (.reg (A 11)) (.reg (A 11)),
  -- p751/arith_arm64.s:396
  MOVD (.glob 2 11) (.reg (A 19)),
  -- p751/arith_arm64.s:397
  AND (.reg (A 15)) (.reg (A 16)) (.reg (A 16)),
  -- p751/arith_arm64.s:398
  AND (.reg (A 15)) (.reg (A 17)) (.reg (A 17)),
  -- p751/arith_arm64.s:399
  ADCS (.reg (A 16)) (.reg (A 12)) (.reg (A 12)),
  -- p751/arith_arm64.s:400
  MOVD (.reg (A 11)) (.mem (A 2) 20),
  MOVD (.reg (A 12)) (.mem (A 2) 21),
  -- p751/arith_arm64.s:401
  ADCS (.reg (A 17)) (.reg (A 13)) (.reg (A 13)),
  -- p751/arith_arm64.s:403
  AND (.reg (A 15)) (.reg (A 19)) (.reg (A 19)),
  -- p751/arith_arm64.s:404
  ADC (.reg (A 19)) (.reg (A 14)) (.reg (A 14)),
  -- p751/arith_arm64.s:405
  MOVD (.reg (A 13)) (.mem (A 2) 22),
  MOVD (.reg (A 14)) (.mem (A 2) 23)
  ]

def sul : Routine := { code := sulCode, frame := 0, glob := [p] }

/-- p751/arith_arm64.s:1416-1478 `modP751` -/
def modCode : List Instr := [
  -- p751/arith_arm64.s:1416
  MOVD (.mem FP 0) (.reg (A 0)),
  -- p751/arith_arm64.s:1419
  MOVD (.glob 2 0) (.reg (A 13)),
  -- p751/arith_arm64.s:1420
  MOVD (.mem (A 0) 0) (.reg (A 1)),
  MOVD (.mem (A 0) 1) (.reg (A 2)),
  -- p751/arith_arm64.s:1421
  MOVD (.mem (A 0) 2) (.reg (A 3)),
  MOVD (.mem (A 0) 3) (.reg (A 4)),
  -- p751/arith_arm64.s:1422
  SUBS (.reg (A 13)) (.reg (A 1)) (.reg (A 1)),
  -- p751/arith_arm64.s:1423
  SBCS (.reg (A 13)) (.reg (A 2)) (.reg (A 2)),
  -- p751/arith_arm64.s:1425
  MOVD (.mem (A 0) 4) (.reg (A 5)),
  MOVD (.mem (A 0) 5) (.reg (A 6)),
  -- p751/arith_arm64.s:1426
  MOVD (.glob 2 5) (.reg (A 14)),
  MOVD (.glob 2 6) (.reg (A 15)),
  -- p751/arith_arm64.s:1427
  SBCS (.reg (A 13)) (.reg (A 3)) (.reg (A 3)),
  -- p751/arith_arm64.s:1428
  SBCS (.reg (A 13)) (.reg (A 4)) (.reg (A 4)),
  -- p751/arith_arm64.s:1430
  MOVD (.mem (A 0) 6) (.reg (A 7)),
  MOVD (.mem (A 0) 7) (.reg (A 8)),
  -- p751/arith_arm64.s:1431
  MOVD (.glob 2 7) (.reg (A 16)),
  MOVD (.glob 2 8) (.reg (A 17)),
  -- p751/arith_arm64.s:1432
  SBCS (.reg (A 13)) (.reg (A 5)) (.reg (A 5)),
  -- p751/arith_arm64.s:1433
  SBCS (.reg (A 14)) (.reg (A 6)) (.reg (A 6)),
  -- p751/arith_arm64.s:1435
  MOVD (.mem (A 0) 8) (.reg (A 9)),
  MOVD (.mem (A 0) 9) (.reg (A 10)),
  -- p751/arith_arm64.s:1436
  MOVD (.glob 2 9) (.reg (A 19)),
  MOVD (.glob 2 10) (.reg (A 20)),
  -- p751/arith_arm64.s:1437
  SBCS (.reg (A 15)) (.reg (A 7)) (.reg (A 7)),
  -- p751/arith_arm64.s:1438
  SBCS (.reg (A 16)) (.reg (A 8)) (.reg (A 8)),
  -- p751/arith_arm64.s:1440
  MOVD (.mem (A 0) 10) (.reg (A 11)),
  MOVD (.mem (A 0) 11) (.reg (A 12)),
  -- p751/arith_arm64.s:1441
  MOVD (.glob 2 11) (.reg (A 21)),
  -- p751/arith_arm64.s:1442
  SBCS (.reg (A 17)) (.reg (A 9)) (.reg (A 9)),
  -- p751/arith_arm64.s:1443
  SBCS (.reg (A 19)) (.reg (A 10)) (.reg (A 10)),
  -- p751/arith_arm64.s:1445
  SBCS (.reg (A 20)) (.reg (A 11)) (.reg (A 11)),
  -- p751/arith_arm64.s:1446
  SBCS (.reg (A 21)) (.reg (A 12)) (.reg (A 12)),
  -- p751/arith_arm64.s:1447
  SBC (.imm 0) (.imm 0) (.reg (A 22)),
  -- p751/arith_arm64.s:1450
  AND (.reg (A 22)) (.reg (A 13)) (.reg (A 13)),
  -- p751/arith_arm64.s:1451
  AND (.reg (A 22)) (.reg (A 14)) (.reg (A 14)),
  -- p751/arith_arm64.s:1452
  AND (.reg (A 22)) (.reg (A 15)) (.reg (A 15)),
  -- p751/arith_arm64.s:1453
  AND (.reg (A 22)) (.reg (A 16)) (.reg (A 16)),
  -- p751/arith_arm64.s:1454
  AND (.reg (A 22)) (.reg (A 17)) (.reg (A 17)),
  -- p751/arith_arm64.s:1455
  AND (.reg (A 22)) (.reg (A 19)) (.reg (A 19)),
  -- p751/arith_arm64.s:1456
  AND (.reg (A 22)) (.reg (A 20)) (.reg (A 20)),
  -- p751/arith_arm64.s:1457
  AND (.reg (A 22)) (.reg (A 21)) (.reg (A 21)),
  -- p751/arith_arm64.s:1459
  ADDS (.reg (A 13)) (.reg (A 1)) (.reg (A 1)),
  -- p751/arith_arm64.s:1460
  ADCS (.reg (A 13)) (.reg (A 2)) (.reg (A 2)),
  -- p751/arith_arm64.s:1461
  MOVD (.reg (A 1)) (.mem (A 0) 0),
  MOVD (.reg (A 2)) (.mem (A 0) 1),
  -- p751/arith_arm64.s:1462
  ADCS (.reg (A 13)) (.reg (A 3)) (.reg (A 3)),
  -- p751/arith_arm64.s:1463
  ADCS (.reg (A 13)) (.reg (A 4)) (.reg (A 4)),
  -- p751/arith_arm64.s:1464
  MOVD (.reg (A 3)) (.mem (A 0) 2),
  MOVD (.reg (A 4)) (.mem (A 0) 3),
  -- p751/arith_arm64.s:1465
  ADCS (.reg (A 13)) (.reg (A 5)) (.reg (A 5)),
  -- p751/arith_arm64.s:1466
  ADCS (.reg (A 14)) (.reg (A 6)) (.reg (A 6)),
  -- p751/arith_arm64.s:1467
  MOVD (.reg (A 5)) (.mem (A 0) 4),
  MOVD (.reg (A 6)) (.mem (A 0) 5),
  -- p751/arith_arm64.s:1468
  ADCS (.reg (A 15)) (.reg (A 7)) (.reg (A 7)),
  -- p751/arith_arm64.s:1469
  ADCS (.reg (A 16)) (.reg (A 8)) (.reg (A 8)),
  -- p751/arith_arm64.s:1470
  MOVD (.reg (A 7)) (.mem (A 0) 6),
  MOVD (.reg (A 8)) (.mem (A 0) 7),
  -- p751/arith_arm64.s:1471
  ADCS (.reg (A 17)) (.reg (A 9)) (.reg (A 9)),
  -- p751/arith_arm64.s:1472
  ADCS (.reg (A 19)) (.reg (A 10)) (.reg (A 10)),
  -- p751/arith_arm64.s:1473
  MOVD (.reg (A 9)) (.mem (A 0) 8),
  MOVD (.reg (A 10)) (.mem (A 0) 9),
  -- p751/arith_arm64.s:1474
  ADCS (.reg (A 20)) (.reg (A 11)) (.reg (A 11)),
  -- p751/arith_arm64.s:1475
  ADC (.reg (A 21)) (.reg (A 12)) (.reg (A 12)),
  -- p751/arith_arm64.s:1476
  MOVD (.reg (A 11)) (.mem (A 0) 10),
  MOVD (.reg (A 12)) (.mem (A 0) 11)
  ]

def mod : Routine := { code := modCode, frame := 0, glob := [p] }

/-- p751/arith_arm64.s:569-786 `mulP751` -/
def mulCode : List Instr := [
  -- p751/arith_arm64.s:569
  MOVD (.mem FP 0) (.reg (A 2)),
  -- p751/arith_arm64.s:570
  MOVD (.mem FP 1) (.reg (A 0)),
  -- p751/arith_arm64.s:571
  MOVD (.mem FP 2) (.reg (A 1)),
  -- p751/arith_arm64.s:575
  MOVD (.mem (A 0) 0) (.reg (A 3)),
  MOVD (.mem (A 0) 1) (.reg (A 4)),
  -- p751/arith_arm64.s:576
  MOVD (.mem (A 0) 6) (.reg (A 9)),
  MOVD (.mem (A 0) 7) (.reg (A 10)),
  -- p751/arith_arm64.s:577
  ADDS (.reg (A 9)) (.reg (A 3)) (.reg (A 3)),
  -- p751/arith_arm64.s:578
  ADCS (.reg (A 10)) (.reg (A 4)) (.reg (A 4)),
  -- p751/arith_arm64.s:579
  MOVD (.mem (A 0) 2) (.reg (A 5)),
  MOVD (.mem (A 0) 3) (.reg (A 6)),
  -- p751/arith_arm64.s:580
  MOVD (.mem (A 0) 8) (.reg (A 11)),
  MOVD (.mem (A 0) 9) (.reg (A 12)),
  -- p751/arith_arm64.s:581
  ADCS (.reg (A 11)) (.reg (A 5)) (.reg (A 5)),
  -- p751/arith_arm64.s:582
  ADCS (.reg (A 12)) (.reg (A 6)) (.reg (A 6)),
  -- p751/arith_arm64.s:583
  MOVD (.mem (A 0) 4) (.reg (A 7)),
  MOVD (.mem (A 0) 5) (.reg (A 8)),
  -- p751/arith_arm64.s:584
  MOVD (.mem (A 0) 10) (.reg (A 13)),
  MOVD (.mem (A 0) 11) (.reg (A 14)),
  -- p751/arith_arm64.s:585
  ADCS (.reg (A 13)) (.reg (A 7)) (.reg (A 7)),
  -- p751/arith_arm64.s:586
  ADCS (.reg (A 14)) (.reg (A 8)) (.reg (A 8)),
  -- p751/arith_arm64.s:587
  ADC (.imm 0) (.imm 0) (.reg (A 22)),
  -- p751/arith_arm64.s:591
  MOVD (.mem (A 1) 0) (.reg (A 9)),
  MOVD (.mem (A 1) 1) (.reg (A 10)),
  -- p751/arith_arm64.s:592
  MOVD (.mem (A 1) 6) (.reg (A 15)),
  MOVD (.mem (A 1) 7) (.reg (A 16)),
  -- p751/arith_arm64.s:593
  ADDS (.reg (A 15)) (.reg (A 9)) (.reg (A 9)),
  -- p751/arith_arm64.s:594
  ADCS (.reg (A 16)) (.reg (A 10)) (.reg (A 10)),
  -- p751/arith_arm64.s:595
  MOVD (.mem (A 1) 2) (.reg (A 11)),
  MOVD (.mem (A 1) 3) (.reg (A 12)),
  -- p751/arith_arm64.s:596
  MOVD (.mem (A 1) 8) (.reg (A 17)),
  MOVD (.mem (A 1) 9) (.reg (A 19)),
  -- p751/arith_arm64.s:597
  ADCS (.reg (A 17)) (.reg (A 11)) (.reg (A 11)),
  -- p751/arith_arm64.s:598
  ADCS (.reg (A 19)) (.reg (A 12)) (.reg (A 12)),
  -- p751/arith_arm64.s:599
  MOVD (.mem (A 1) 4) (.reg (A 13)),
  MOVD (.mem (A 1) 5) (.reg (A 14)),
  -- p751/arith_arm64.s:600
  MOVD (.mem (A 1) 10) (.reg (A 20)),
  MOVD (.mem (A 1) 11) (.reg (A 21)),
  -- p751/arith_arm64.s:601
  ADCS (.reg (A 20)) (.reg (A 13)) (.reg (A 13)),
  -- p751/arith_arm64.s:602
  ADCS (.reg (A 21)) (.reg (A 14)) (.reg (A 14)),
  -- p751/arith_arm64.s:603
  ADC (.imm 0) (.imm 0) (.reg (A 23)),
  -- p751/arith_arm64.s:606
  SUB (.reg (A 22)) (.imm 0) (.reg (A 24)),
  -- p751/arith_arm64.s:607
  SUB (.reg (A 23)) (.imm 0) (.reg (A 25)),
  -- p751/arith_arm64.s:608
  AND (.reg (A 23)) (.reg (A 22)) (.reg (A 22)),
  -- p751/arith_arm64.s:613
  MOVD (.reg (A 6)) (.mem (A 2) 0),
  MOVD (.reg (A 7)) (.mem (A 2) 1),
  -- p751/arith_arm64.s:614
  AND (.reg (A 25)) (.reg (A 3)) (.reg (A 15)),
  -- p751/arith_arm64.s:615
  AND (.reg (A 25)) (.reg (A 4)) (.reg (A 16)),
  -- p751/arith_arm64.s:616
  MOVD (.reg (A 8)) (.mem (A 2) 2),
  MOVD (.reg (A 12)) (.mem (A 2) 3),
  -- p751/arith_arm64.s:617
  AND (.reg (A 25)) (.reg (A 5)) (.reg (A 17)),
  -- p751/arith_arm64.s:618
  AND (.reg (A 25)) (.reg (A 6)) (.reg (A 19)),
  -- p751/arith_arm64.s:619
  MOVD (.reg (A 13)) (.mem (A 2) 4),
  MOVD (.reg (A 14)) (.mem (A 2) 5),
  -- p751/arith_arm64.s:620
  AND (.reg (A 25)) (.reg (A 7)) (.reg (A 20)),
  -- p751/arith_arm64.s:621
  AND (.reg (A 25)) (.reg (A 8)) (.reg (A 21)),
  -- p751/arith_arm64.s:625
  AND (.reg (A 24)) (.reg (A 9)) (.reg (A 25)),
  -- p751/arith_arm64.s:626
  AND (.reg (A 24)) (.reg (A 10)) (.reg (A 26)),
  -- p751/arith_arm64.s:627
  ADDS (.reg (A 25)) (.reg (A 15)) (.reg (A 15)),
  -- p751/arith_arm64.s:628
  ADCS (.reg (A 26)) (.reg (A 16)) (.reg (A 16)),
  -- p751/arith_arm64.s:629
  MOVD (.reg (A 15)) (.mem (A 2) 12),
  MOVD (.reg (A 16)) (.mem (A 2) 13),
  -- p751/arith_arm64.s:630
  AND (.reg (A 24)) (.reg (A 11)) (.reg (A 25)),
  -- p751/arith_arm64.s:631
  AND (.reg (A 24)) (.reg (A 12)) (.reg (A 26)),
  -- p751/arith_arm64.s:632
  ADCS (.reg (A 25)) (.reg (A 17)) (.reg (A 17)),
  -- p751/arith_arm64.s:633
  ADCS (.reg (A 26)) (.reg (A 19)) (.reg (A 19)),
  -- p751/arith_arm64.s:634
  MOVD (.reg (A 17)) (.mem (A 2) 14),
  MOVD (.reg (A 19)) (.mem (A 2) 15),
  -- p751/arith_arm64.s:635
  AND (.reg (A 24)) (.reg (A 13)) (.reg (A 25)),
  -- p751/arith_arm64.s:636
  AND (.reg (A 24)) (.reg (A 14)) (.reg (A 26)),
  -- p751/arith_arm64.s:637
  ADCS (.reg (A 25)) (.reg (A 20)) (.reg (A 20)),
  -- p751/arith_arm64.s:638
  ADCS (.reg (A 26)) (.reg (A 21)) (.reg (A 21)),
  -- p751/arith_arm64.s:639
  MOVD (.reg (A 20)) (.mem (A 2) 16),
  MOVD (.reg (A 21)) (.mem (A 2) 17),
  -- p751/arith_arm64.s:641
  ADC (.imm 0) (.reg (A 22)) (.reg A29),
  -- p751/arith_arm64.s:644
  ADDS (.reg (A 3)) (.reg (A 6)) (.reg (A 6)),
  ADCS (.reg (A 4)) (.reg (A 7)) (.reg (A 7)),
  ADCS (.reg (A 5)) (.reg (A 8)) (.reg (A 8)),
  ADC (.imm 0) (.imm 0) (.reg (A 26)),
  ADDS (.reg (A 9)) (.reg (A 12)) (.reg (A 12)),
  ADCS (.reg (A 10)) (.reg (A 13)) (.reg (A 13)),
  ADCS (.reg (A 11)) (.reg (A 14)) (.reg (A 14)),
  ADC (.imm 0) (.imm 0) (.reg (A 22)),
  SUB (.reg (A 26)) (.imm 0) (.reg (A 23)),
  SUB (.reg (A 22)) (.imm 0) (.reg (A 24)),
  AND (.reg (A 22)) (.reg (A 26)) (.reg (A 26)),
  AND (.reg (A 23)) (.reg (A 12)) (.reg (A 15)),
  AND (.reg (A 23)) (.reg (A 13)) (.reg (A 16)),
  AND (.reg (A 23)) (.reg (A 14)) (.reg (A 17)),
  AND (.reg (A 24)) (.reg (A 6)) (.reg (A 19)),
  AND (.reg (A 24)) (.reg (A 7)) (.reg (A 20)),
  AND (.reg (A 24)) (.reg (A 8)) (.reg (A 21)),
  ADDS (.reg (A 19)) (.reg (A 15)) (.reg (A 15)),
  ADCS (.reg (A 20)) (.reg (A 16)) (.reg (A 16)),
  MOVD (.reg (A 15)) (.mem (A 2) 6),
  MOVD (.reg (A 16)) (.mem (A 2) 7),
  MUL (.reg (A 6)) (.reg (A 12)) (.reg (A 15)),
  MUL (.reg (A 6)) (.reg (A 13)) (.reg (A 16)),
  ADCS (.reg (A 21)) (.reg (A 17)) (.reg (A 17)),
  MOVD (.reg (A 17)) (.mem (A 2) 8),
  UMULH (.reg (A 6)) (.reg (A 13)) (.reg (A 17)),
  UMULH (.reg (A 6)) (.reg (A 12)) (.reg (A 19)),
  ADC (.imm 0) (.reg (A 26)) (.reg (A 26)),
  MUL (.reg (A 7)) (.reg (A 12)) (.reg (A 24)),
  UMULH (.reg (A 7)) (.reg (A 12)) (.reg (A 25)),
  ADDS (.reg (A 19)) (.reg (A 16)) (.reg (A 16)),
  ADCS (.imm 0) (.reg (A 17)) (.reg (A 17)),
  ADC (.imm 0) (.imm 0) (.reg (A 19)),
  MUL (.reg (A 6)) (.reg (A 14)) (.reg (A 22)),
  UMULH (.reg (A 6)) (.reg (A 14)) (.reg (A 23)),
  ADDS (.reg (A 24)) (.reg (A 16)) (.reg (A 16)),
  ADCS (.reg (A 25)) (.reg (A 17)) (.reg (A 17)),
  ADC (.imm 0) (.reg (A 19)) (.reg (A 19)),
  MUL (.reg (A 7)) (.reg (A 13)) (.reg (A 24)),
  UMULH (.reg (A 7)) (.reg (A 13)) (.reg (A 25)),
  ADDS (.reg (A 22)) (.reg (A 17)) (.reg (A 17)),
  ADCS (.reg (A 23)) (.reg (A 19)) (.reg (A 19)),
  ADC (.imm 0) (.imm 0) (.reg (A 20)),
  MUL (.reg (A 8)) (.reg (A 12)) (.reg (A 22)),
  UMULH (.reg (A 8)) (.reg (A 12)) (.reg (A 23)),
  ADDS (.reg (A 24)) (.reg (A 17)) (.reg (A 17)),
  ADCS (.reg (A 25)) (.reg (A 19)) (.reg (A 19)),
  ADC (.imm 0) (.reg (A 20)) (.reg (A 20)),
  MUL (.reg (A 7)) (.reg (A 14)) (.reg (A 24)),
  UMULH (.reg (A 7)) (.reg (A 14)) (.reg (A 25)),
  ADDS (.reg (A 22)) (.reg (A 17)) (.reg (A 17)),
  ADCS (.reg (A 23)) (.reg (A 19)) (.reg (A 19)),
  ADC (.imm 0) (.reg (A 20)) (.reg (A 20)),
  MUL (.reg (A 8)) (.reg (A 13)) (.reg (A 22)),
  UMULH (.reg (A 8)) (.reg (A 13)) (.reg (A 23)),
  ADDS (.reg (A 24)) (.reg (A 19)) (.reg (A 19)),
  ADCS (.reg (A 25)) (.reg (A 20)) (.reg (A 20)),
  ADC (.imm 0) (.imm 0) (.reg (A 21)),
  MUL (.reg (A 8)) (.reg (A 14)) (.reg (A 24)),
  UMULH (.reg (A 8)) (.reg (A 14)) (.reg (A 25)),
  ADDS (.reg (A 22)) (.reg (A 19)) (.reg (A 19)),
  ADCS (.reg (A 23)) (.reg (A 20)) (.reg (A 20)),
  ADC (.imm 0) (.reg (A 21)) (.reg (A 21)),
  ADDS (.reg (A 24)) (.reg (A 20)) (.reg (A 20)),
  ADC (.reg (A 25)) (.reg (A 21)) (.reg (A 21)),
  MUL (.reg (A 3)) (.reg (A 9)) (.reg (A 6)),
  MOVD (.mem (A 2) 6) (.reg (A 22)),
  MOVD (.mem (A 2) 7) (.reg (A 23)),
  MOVD (.mem (A 2) 8) (.reg (A 24)),
  UMULH (.reg (A 3)) (.reg (A 9)) (.reg (A 12)),
  ADDS (.reg (A 22)) (.reg (A 19)) (.reg (A 19)),
  ADCS (.reg (A 23)) (.reg (A 20)) (.reg (A 20)),
  MUL (.reg (A 3)) (.reg (A 10)) (.reg (A 7)),
  ADCS (.reg (A 24)) (.reg (A 21)) (.reg (A 21)),
  ADC (.imm 0) (.reg (A 26)) (.reg (A 26)),
  UMULH (.reg (A 3)) (.reg (A 10)) (.reg (A 8)),
  MUL (.reg (A 4)) (.reg (A 9)) (.reg (A 24)),
  UMULH (.reg (A 4)) (.reg (A 9)) (.reg (A 25)),
  ADDS (.reg (A 12)) (.reg (A 7)) (.reg (A 7)),
  ADCS (.imm 0) (.reg (A 8)) (.reg (A 8)),
  ADC (.imm 0) (.imm 0) (.reg (A 12)),
  MUL (.reg (A 3)) (.reg (A 11)) (.reg (A 22)),
  UMULH (.reg (A 3)) (.reg (A 11)) (.reg (A 23)),
  ADDS (.reg (A 24)) (.reg (A 7)) (.reg (A 7)),
  ADCS (.reg (A 25)) (.reg (A 8)) (.reg (A 8)),
  ADC (.imm 0) (.reg (A 12)) (.reg (A 12)),
  MUL (.reg (A 4)) (.reg (A 10)) (.reg (A 24)),
  UMULH (.reg (A 4)) (.reg (A 10)) (.reg (A 25)),
  ADDS (.reg (A 22)) (.reg (A 8)) (.reg (A 8)),
  ADCS (.reg (A 23)) (.reg (A 12)) (.reg (A 12)),
  ADC (.imm 0) (.imm 0) (.reg (A 13)),
  MUL (.reg (A 5)) (.reg (A 9)) (.reg (A 22)),
  UMULH (.reg (A 5)) (.reg (A 9)) (.reg (A 23)),
  ADDS (.reg (A 24)) (.reg (A 8)) (.reg (A 8)),
  ADCS (.reg (A 25)) (.reg (A 12)) (.reg (A 12)),
  ADC (.imm 0) (.reg (A 13)) (.reg (A 13)),
  MUL (.reg (A 4)) (.reg (A 11)) (.reg (A 24)),
  UMULH (.reg (A 4)) (.reg (A 11)) (.reg (A 25)),
  ADDS (.reg (A 22)) (.reg (A 8)) (.reg (A 8)),
  ADCS (.reg (A 23)) (.reg (A 12)) (.reg (A 12)),
  ADC (.imm 0) (.reg (A 13)) (.reg (A 13)),
  MUL (.reg (A 5)) (.reg (A 10)) (.reg (A 22)),
  UMULH (.reg (A 5)) (.reg (A 10)) (.reg (A 23)),
  ADDS (.reg (A 24)) (.reg (A 12)) (.reg (A 12)),
  ADCS (.reg (A 25)) (.reg (A 13)) (.reg (A 13)),
  ADC (.imm 0) (.imm 0) (.reg (A 14)),
  MUL (.reg (A 5)) (.reg (A 11)) (.reg (A 24)),
  UMULH (.reg (A 5)) (.reg (A 11)) (.reg (A 25)),
  ADDS (.reg (A 22)) (.reg (A 12)) (.reg (A 12)),
  ADCS (.reg (A 23)) (.reg (A 13)) (.reg (A 13)),
  ADC (.imm 0) (.reg (A 14)) (.reg (A 14)),
  ADDS (.reg (A 24)) (.reg (A 13)) (.reg (A 13)),
  ADC (.reg (A 25)) (.reg (A 14)) (.reg (A 14)),
  MOVD (.reg (A 6)) (.mem (A 2) 6),
  MOVD (.reg (A 7)) (.mem (A 2) 7),
  MOVD (.reg (A 8)) (.mem (A 2) 8),
  SUBS (.reg (A 6)) (.reg (A 15)) (.reg (A 15)),
  SBCS (.reg (A 7)) (.reg (A 16)) (.reg (A 16)),
  MOVD (.mem (A 2) 0) (.reg (A 6)),
  MOVD (.mem (A 2) 1) (.reg (A 7)),
  SBCS (.reg (A 8)) (.reg (A 17)) (.reg (A 17)),
  MOVD (.mem (A 2) 2) (.reg (A 8)),
  SBCS (.reg (A 12)) (.reg (A 19)) (.reg (A 19)),
  SBCS (.reg (A 13)) (.reg (A 20)) (.reg (A 20)),
  SBCS (.reg (A 14)) (.reg (A 21)) (.reg (A 21)),
  SBC (.imm 0) (.reg (A 26)) (.reg (A 26)),
  ADDS (.reg (A 12)) (.reg (A 15)) (.reg (A 15)),
  ADCS (.reg (A 13)) (.reg (A 16)) (.reg (A 16)),
  MOVD (.mem (A 2) 3) (.reg (A 12)),
  MOVD (.mem (A 2) 4) (.reg (A 13)),
  MUL (.reg (A 6)) (.reg (A 12)) (.reg (A 3)),
  ADCS (.reg (A 14)) (.reg (A 17)) (.reg (A 17)),
  UMULH (.reg (A 6)) (.reg (A 12)) (.reg (A 9)),
  MOVD (.mem (A 2) 5) (.reg (A 14)),
  MUL (.reg (A 6)) (.reg (A 13)) (.reg (A 4)),
  ADCS (.imm 0) (.reg (A 19)) (.reg (A 19)),
  UMULH (.reg (A 6)) (.reg (A 13)) (.reg (A 5)),
  ADCS (.imm 0) (.reg (A 20)) (.reg (A 20)),
  ADCS (.imm 0) (.reg (A 21)) (.reg (A 21)),
  ADC (.imm 0) (.reg (A 26)) (.reg (A 26)),
  MUL (.reg (A 7)) (.reg (A 12)) (.reg (A 24)),
  UMULH (.reg (A 7)) (.reg (A 12)) (.reg (A 25)),
  ADDS (.reg (A 9)) (.reg (A 4)) (.reg (A 4)),
  ADCS (.imm 0) (.reg (A 5)) (.reg (A 5)),
  ADC (.imm 0) (.imm 0) (.reg (A 9)),
  MUL (.reg (A 6)) (.reg (A 14)) (.reg (A 22)),
  UMULH (.reg (A 6)) (.reg (A 14)) (.reg (A 23)),
  ADDS (.reg (A 24)) (.reg (A 4)) (.reg (A 4)),
  ADCS (.reg (A 25)) (.reg (A 5)) (.reg (A 5)),
  ADC (.imm 0) (.reg (A 9)) (.reg (A 9)),
  MUL (.reg (A 7)) (.reg (A 13)) (.reg (A 24)),
  UMULH (.reg (A 7)) (.reg (A 13)) (.reg (A 25)),
  ADDS (.reg (A 22)) (.reg (A 5)) (.reg (A 5)),
  ADCS (.reg (A 23)) (.reg (A 9)) (.reg (A 9)),
  ADC (.imm 0) (.imm 0) (.reg (A 10)),
  MUL (.reg (A 8)) (.reg (A 12)) (.reg (A 22)),
  UMULH (.reg (A 8)) (.reg (A 12)) (.reg (A 23)),
  ADDS (.reg (A 24)) (.reg (A 5)) (.reg (A 5)),
  ADCS (.reg (A 25)) (.reg (A 9)) (.reg (A 9)),
  ADC (.imm 0) (.reg (A 10)) (.reg (A 10)),
  MUL (.reg (A 7)) (.reg (A 14)) (.reg (A 24)),
  UMULH (.reg (A 7)) (.reg (A 14)) (.reg (A 25)),
  ADDS (.reg (A 22)) (.reg (A 5)) (.reg (A 5)),
  ADCS (.reg (A 23)) (.reg (A 9)) (.reg (A 9)),
  ADC (.imm 0) (.reg (A 10)) (.reg (A 10)),
  MUL (.reg (A 8)) (.reg (A 13)) (.reg (A 22)),
  UMULH (.reg (A 8)) (.reg (A 13)) (.reg (A 23)),
  ADDS (.reg (A 24)) (.reg (A 9)) (.reg (A 9)),
  ADCS (.reg (A 25)) (.reg (A 10)) (.reg (A 10)),
  ADC (.imm 0) (.imm 0) (.reg (A 11)),
  MUL (.reg (A 8)) (.reg (A 14)) (.reg (A 24)),
  UMULH (.reg (A 8)) (.reg (A 14)) (.reg (A 25)),
  ADDS (.reg (A 22)) (.reg (A 9)) (.reg (A 9)),
  ADCS (.reg (A 23)) (.reg (A 10)) (.reg (A 10)),
  ADC (.imm 0) (.reg (A 11)) (.reg (A 11)),
  ADDS (.reg (A 24)) (.reg (A 10)) (.reg (A 10)),
  ADC (.reg (A 25)) (.reg (A 11)) (.reg (A 11)),
  SUBS (.reg (A 3)) (.reg (A 15)) (.reg (A 15)),
  SBCS (.reg (A 4)) (.reg (A 16)) (.reg (A 16)),
  SBCS (.reg (A 5)) (.reg (A 17)) (.reg (A 17)),
  SBCS (.reg (A 9)) (.reg (A 19)) (.reg (A 19)),
  SBCS (.reg (A 10)) (.reg (A 20)) (.reg (A 20)),
  SBCS (.reg (A 11)) (.reg (A 21)) (.reg (A 21)),
  SBC (.imm 0) (.reg (A 26)) (.reg (A 26)),
  ADDS (.reg (A 3)) (.reg (A 19)) (.reg (A 19)),
  ADCS (.reg (A 4)) (.reg (A 20)) (.reg (A 20)),
  ADCS (.reg (A 5)) (.reg (A 21)) (.reg (A 21)),
  ADCS (.reg (A 26)) (.reg (A 9)) (.reg (A 22)),
  ADCS (.imm 0) (.reg (A 10)) (.reg (A 23)),
  ADC (.imm 0) (.reg (A 11)) (.reg (A 24)),
  -- p751/arith_arm64.s:648
  MOVD (.reg (A 15)) (.mem (A 2) 9),
  MOVD (.reg (A 16)) (.mem (A 2) 10),
  -- p751/arith_arm64.s:649
  MOVD (.mem (A 2) 12) (.reg (A 3)),
  MOVD (.mem (A 2) 13) (.reg (A 4)),
  -- p751/arith_arm64.s:650
  ADDS (.reg (A 3)) (.reg (A 19)) (.reg (A 19)),
  -- p751/arith_arm64.s:651
  MOVD (.reg (A 17)) (.mem (A 2) 11),
  MOVD (.reg (A 19)) (.mem (A 2) 12),
  -- p751/arith_arm64.s:652
  ADCS (.reg (A 4)) (.reg (A 20)) (.reg (A 20)),
  -- p751/arith_arm64.s:653
  MOVD (.mem (A 2) 14) (.reg (A 5)),
  MOVD (.mem (A 2) 15) (.reg (A 6)),
  -- p751/arith_arm64.s:654
  ADCS (.reg (A 5)) (.reg (A 21)) (.reg (A 21)),
  -- p751/arith_arm64.s:655
  MOVD (.reg (A 20)) (.mem (A 2) 13),
  MOVD (.reg (A 21)) (.mem (A 2) 14),
  -- p751/arith_arm64.s:656
  ADCS (.reg (A 6)) (.reg (A 22)) (.reg (A 22)),
  -- p751/arith_arm64.s:657
  MOVD (.mem (A 2) 16) (.reg (A 7)),
  MOVD (.mem (A 2) 17) (.reg (A 8)),
  -- p751/arith_arm64.s:658
  ADCS (.reg (A 7)) (.reg (A 23)) (.reg (A 23)),
  -- p751/arith_arm64.s:659
  MOVD (.reg (A 22)) (.mem (A 2) 15),
  MOVD (.reg (A 23)) (.mem (A 2) 16),
  -- p751/arith_arm64.s:660
  ADCS (.reg (A 8)) (.reg (A 24)) (.reg (A 24)),
  -- p751/arith_arm64.s:661
  MOVD (.reg (A 24)) (.mem (A 2) 17),
  -- p751/arith_arm64.s:662
  ADC (.imm 0) (.reg A29) (.reg A29),
  -- p751/arith_arm64.s:665
  MOVD (.mem (A 0) 0) (.reg (A 3)),
  MOVD (.mem (A 0) 1) (.reg (A 4)),
  -- p751/arith_arm64.s:666
  MOVD (.mem (A 0) 2) (.reg (A 5)),
  MOVD (.mem (A 0) 3) (.reg (A 6)),
  -- p751/arith_arm64.s:667
  MOVD (.mem (A 0) 4) (.reg (A 7)),
  MOVD (.mem (A 0) 5) (.reg (A 8)),
  -- p751/arith_arm64.s:668
  MOVD (.mem (A 1) 0) (.reg (A 9)),
  MOVD (.mem (A 1) 1) (.reg (A 10)),
  -- p751/arith_arm64.s:669
  MOVD (.mem (A 1) 2) (.reg (A 11)),
  MOVD (.mem (A 1) 3) (.reg (A 12)),
  -- p751/arith_arm64.s:670
  MOVD (.mem (A 1) 4) (.reg (A 13)),
  MOVD (.mem (A 1) 5) (.reg (A 14)),
  -- p751/arith_arm64.s:673
  ADDS (.reg (A 3)) (.reg (A 6)) (.reg (A 6)),
  ADCS (.reg (A 4)) (.reg (A 7)) (.reg (A 7)),
  ADCS (.reg (A 5)) (.reg (A 8)) (.reg (A 8)),
  ADC (.imm 0) (.imm 0) (.reg (A 26)),
  ADDS (.reg (A 9)) (.reg (A 12)) (.reg (A 12)),
  ADCS (.reg (A 10)) (.reg (A 13)) (.reg (A 13)),
  ADCS (.reg (A 11)) (.reg (A 14)) (.reg (A 14)),
  ADC (.imm 0) (.imm 0) (.reg (A 22)),
  SUB (.reg (A 26)) (.imm 0) (.reg (A 23)),
  SUB (.reg (A 22)) (.imm 0) (.reg (A 24)),
  AND (.reg (A 22)) (.reg (A 26)) (.reg (A 26)),
  AND (.reg (A 23)) (.reg (A 12)) (.reg (A 15)),
  AND (.reg (A 23)) (.reg (A 13)) (.reg (A 16)),
  AND (.reg (A 23)) (.reg (A 14)) (.reg (A 17)),
  AND (.reg (A 24)) (.reg (A 6)) (.reg (A 19)),
  AND (.reg (A 24)) (.reg (A 7)) (.reg (A 20)),
  AND (.reg (A 24)) (.reg (A 8)) (.reg (A 21)),
  ADDS (.reg (A 19)) (.reg (A 15)) (.reg (A 15)),
  ADCS (.reg (A 20)) (.reg (A 16)) (.reg (A 16)),
  MOVD (.reg (A 15)) (.mem (A 2) 0),
  MOVD (.reg (A 16)) (.mem (A 2) 1),
  MUL (.reg (A 6)) (.reg (A 12)) (.reg (A 15)),
  MUL (.reg (A 6)) (.reg (A 13)) (.reg (A 16)),
  ADCS (.reg (A 21)) (.reg (A 17)) (.reg (A 17)),
  MOVD (.reg (A 17)) (.mem (A 2) 2),
  UMULH (.reg (A 6)) (.reg (A 13)) (.reg (A 17)),
  UMULH (.reg (A 6)) (.reg (A 12)) (.reg (A 19)),
  ADC (.imm 0) (.reg (A 26)) (.reg (A 26)),
  MUL (.reg (A 7)) (.reg (A 12)) (.reg (A 24)),
  UMULH (.reg (A 7)) (.reg (A 12)) (.reg (A 25)),
  ADDS (.reg (A 19)) (.reg (A 16)) (.reg (A 16)),
  ADCS (.imm 0) (.reg (A 17)) (.reg (A 17)),
  ADC (.imm 0) (.imm 0) (.reg (A 19)),
  MUL (.reg (A 6)) (.reg (A 14)) (.reg (A 22)),
  UMULH (.reg (A 6)) (.reg (A 14)) (.reg (A 23)),
  ADDS (.reg (A 24)) (.reg (A 16)) (.reg (A 16)),
  ADCS (.reg (A 25)) (.reg (A 17)) (.reg (A 17)),
  ADC (.imm 0) (.reg (A 19)) (.reg (A 19)),
  MUL (.reg (A 7)) (.reg (A 13)) (.reg (A 24)),
  UMULH (.reg (A 7)) (.reg (A 13)) (.reg (A 25)),
  ADDS (.reg (A 22)) (.reg (A 17)) (.reg (A 17)),
  ADCS (.reg (A 23)) (.reg (A 19)) (.reg (A 19)),
  ADC (.imm 0) (.imm 0) (.reg (A 20)),
  MUL (.reg (A 8)) (.reg (A 12)) (.reg (A 22)),
  UMULH (.reg (A 8)) (.reg (A 12)) (.reg (A 23)),
  ADDS (.reg (A 24)) (.reg (A 17)) (.reg (A 17)),
  ADCS (.reg (A 25)) (.reg (A 19)) (.reg (A 19)),
  ADC (.imm 0) (.reg (A 20)) (.reg (A 20)),
  MUL (.reg (A 7)) (.reg (A 14)) (.reg (A 24)),
  UMULH (.reg (A 7)) (.reg (A 14)) (.reg (A 25)),
  ADDS (.reg (A 22)) (.reg (A 17)) (.reg (A 17)),
  ADCS (.reg (A 23)) (.reg (A 19)) (.reg (A 19)),
  ADC (.imm 0) (.reg (A 20)) (.reg (A 20)),
  MUL (.reg (A 8)) (.reg (A 13)) (.reg (A 22)),
  UMULH (.reg (A 8)) (.reg (A 13)) (.reg (A 23)),
  ADDS (.reg (A 24)) (.reg (A 19)) (.reg (A 19)),
  ADCS (.reg (A 25)) (.reg (A 20)) (.reg (A 20)),
  ADC (.imm 0) (.imm 0) (.reg (A 21)),
  MUL (.reg (A 8)) (.reg (A 14)) (.reg (A 24)),
  UMULH (.reg (A 8)) (.reg (A 14)) (.reg (A 25)),
  ADDS (.reg (A 22)) (.reg (A 19)) (.reg (A 19)),
  ADCS (.reg (A 23)) (.reg (A 20)) (.reg (A 20)),
  ADC (.imm 0) (.reg (A 21)) (.reg (A 21)),
  ADDS (.reg (A 24)) (.reg (A 20)) (.reg (A 20)),
  ADC (.reg (A 25)) (.reg (A 21)) (.reg (A 21)),
  MUL (.reg (A 3)) (.reg (A 9)) (.reg (A 6)),
  MOVD (.mem (A 2) 0) (.reg (A 22)),
  MOVD (.mem (A 2) 1) (.reg (A 23)),
  MOVD (.mem (A 2) 2) (.reg (A 24)),
  UMULH (.reg (A 3)) (.reg (A 9)) (.reg (A 12)),
  ADDS (.reg (A 22)) (.reg (A 19)) (.reg (A 19)),
  ADCS (.reg (A 23)) (.reg (A 20)) (.reg (A 20)),
  MUL (.reg (A 3)) (.reg (A 10)) (.reg (A 7)),
  ADCS (.reg (A 24)) (.reg (A 21)) (.reg (A 21)),
  ADC (.imm 0) (.reg (A 26)) (.reg (A 26)),
  UMULH (.reg (A 3)) (.reg (A 10)) (.reg (A 8)),
  MUL (.reg (A 4)) (.reg (A 9)) (.reg (A 24)),
  UMULH (.reg (A 4)) (.reg (A 9)) (.reg (A 25)),
  ADDS (.reg (A 12)) (.reg (A 7)) (.reg (A 7)),
  ADCS (.imm 0) (.reg (A 8)) (.reg (A 8)),
  ADC (.imm 0) (.imm 0) (.reg (A 12)),
  MUL (.reg (A 3)) (.reg (A 11)) (.reg (A 22)),
  UMULH (.reg (A 3)) (.reg (A 11)) (.reg (A 23)),
  ADDS (.reg (A 24)) (.reg (A 7)) (.reg (A 7)),
  ADCS (.reg (A 25)) (.reg (A 8)) (.reg (A 8)),
  ADC (.imm 0) (.reg (A 12)) (.reg (A 12)),
  MUL (.reg (A 4)) (.reg (A 10)) (.reg (A 24)),
  UMULH (.reg (A 4)) (.reg (A 10)) (.reg (A 25)),
  ADDS (.reg (A 22)) (.reg (A 8)) (.reg (A 8)),
  ADCS (.reg (A 23)) (.reg (A 12)) (.reg (A 12)),
  ADC (.imm 0) (.imm 0) (.reg (A 13)),
  MUL (.reg (A 5)) (.reg (A 9)) (.reg (A 22)),
  UMULH (.reg (A 5)) (.reg (A 9)) (.reg (A 23)),
  ADDS (.reg (A 24)) (.reg (A 8)) (.reg (A 8)),
  ADCS (.reg (A 25)) (.reg (A 12)) (.reg (A 12)),
  ADC (.imm 0) (.reg (A 13)) (.reg (A 13)),
  MUL (.reg (A 4)) (.reg (A 11)) (.reg (A 24)),
  UMULH (.reg (A 4)) (.reg (A 11)) (.reg (A 25)),
  ADDS (.reg (A 22)) (.reg (A 8)) (.reg (A 8)),
  ADCS (.reg (A 23)) (.reg (A 12)) (.reg (A 12)),
  ADC (.imm 0) (.reg (A 13)) (.reg (A 13)),
  MUL (.reg (A 5)) (.reg (A 10)) (.reg (A 22)),
  UMULH (.reg (A 5)) (.reg (A 10)) (.reg (A 23)),
  ADDS (.reg (A 24)) (.reg (A 12)) (.reg (A 12)),
  ADCS (.reg (A 25)) (.reg (A 13)) (.reg (A 13)),
  ADC (.imm 0) (.imm 0) (.reg (A 14)),
  MUL (.reg (A 5)) (.reg (A 11)) (.reg (A 24)),
  UMULH (.reg (A 5)) (.reg (A 11)) (.reg (A 25)),
  ADDS (.reg (A 22)) (.reg (A 12)) (.reg (A 12)),
  ADCS (.reg (A 23)) (.reg (A 13)) (.reg (A 13)),
  ADC (.imm 0) (.reg (A 14)) (.reg (A 14)),
  ADDS (.reg (A 24)) (.reg (A 13)) (.reg (A 13)),
  ADC (.reg (A 25)) (.reg (A 14)) (.reg (A 14)),
  MOVD (.reg (A 6)) (.mem (A 2) 0),
  MOVD (.reg (A 7)) (.mem (A 2) 1),
  MOVD (.reg (A 8)) (.mem (A 2) 2),
  SUBS (.reg (A 6)) (.reg (A 15)) (.reg (A 15)),
  SBCS (.reg (A 7)) (.reg (A 16)) (.reg (A 16)),
  MOVD (.mem (A 0) 3) (.reg (A 6)),
  MOVD (.mem (A 0) 4) (.reg (A 7)),
  SBCS (.reg (A 8)) (.reg (A 17)) (.reg (A 17)),
  MOVD (.mem (A 0) 5) (.reg (A 8)),
  SBCS (.reg (A 12)) (.reg (A 19)) (.reg (A 19)),
  SBCS (.reg (A 13)) (.reg (A 20)) (.reg (A 20)),
  SBCS (.reg (A 14)) (.reg (A 21)) (.reg (A 21)),
  SBC (.imm 0) (.reg (A 26)) (.reg (A 26)),
  ADDS (.reg (A 12)) (.reg (A 15)) (.reg (A 15)),
  ADCS (.reg (A 13)) (.reg (A 16)) (.reg (A 16)),
  MOVD (.mem (A 1) 3) (.reg (A 12)),
  MOVD (.mem (A 1) 4) (.reg (A 13)),
  MUL (.reg (A 6)) (.reg (A 12)) (.reg (A 3)),
  ADCS (.reg (A 14)) (.reg (A 17)) (.reg (A 17)),
  UMULH (.reg (A 6)) (.reg (A 12)) (.reg (A 9)),
  MOVD (.mem (A 1) 5) (.reg (A 14)),
  MUL (.reg (A 6)) (.reg (A 13)) (.reg (A 4)),
  ADCS (.imm 0) (.reg (A 19)) (.reg (A 19)),
  UMULH (.reg (A 6)) (.reg (A 13)) (.reg (A 5)),
  ADCS (.imm 0) (.reg (A 20)) (.reg (A 20)),
  ADCS (.imm 0) (.reg (A 21)) (.reg (A 21)),
  ADC (.imm 0) (.reg (A 26)) (.reg (A 26)),
  MUL (.reg (A 7)) (.reg (A 12)) (.reg (A 24)),
  UMULH (.reg (A 7)) (.reg (A 12)) (.reg (A 25)),
  ADDS (.reg (A 9)) (.reg (A 4)) (.reg (A 4)),
  ADCS (.imm 0) (.reg (A 5)) (.reg (A 5)),
  ADC (.imm 0) (.imm 0) (.reg (A 9)),
  MUL (.reg (A 6)) (.reg (A 14)) (.reg (A 22)),
  UMULH (.reg (A 6)) (.reg (A 14)) (.reg (A 23)),
  ADDS (.reg (A 24)) (.reg (A 4)) (.reg (A 4)),
  ADCS (.reg (A 25)) (.reg (A 5)) (.reg (A 5)),
  ADC (.imm 0) (.reg (A 9)) (.reg (A 9)),
  MUL (.reg (A 7)) (.reg (A 13)) (.reg (A 24)),
  UMULH (.reg (A 7)) (.reg (A 13)) (.reg (A 25)),
  ADDS (.reg (A 22)) (.reg (A 5)) (.reg (A 5)),
  ADCS (.reg (A 23)) (.reg (A 9)) (.reg (A 9)),
  ADC (.imm 0) (.imm 0) (.reg (A 10)),
  MUL (.reg (A 8)) (.reg (A 12)) (.reg (A 22)),
  UMULH (.reg (A 8)) (.reg (A 12)) (.reg (A 23)),
  ADDS (.reg (A 24)) (.reg (A 5)) (.reg (A 5)),
  ADCS (.reg (A 25)) (.reg (A 9)) (.reg (A 9)),
  ADC (.imm 0) (.reg (A 10)) (.reg (A 10)),
  MUL (.reg (A 7)) (.reg (A 14)) (.reg (A 24)),
  UMULH (.reg (A 7)) (.reg (A 14)) (.reg (A 25)),
  ADDS (.reg (A 22)) (.reg (A 5)) (.reg (A 5)),
  ADCS (.reg (A 23)) (.reg (A 9)) (.reg (A 9)),
  ADC (.imm 0) (.reg (A 10)) (.reg (A 10)),
  MUL (.reg (A 8)) (.reg (A 13)) (.reg (A 22)),
  UMULH (.reg (A 8)) (.reg (A 13)) (.reg (A 23)),
  ADDS (.reg (A 24)) (.reg (A 9)) (.reg (A 9)),
  ADCS (.reg (A 25)) (.reg (A 10)) (.reg (A 10)),
  ADC (.imm 0) (.imm 0) (.reg (A 11)),
  MUL (.reg (A 8)) (.reg (A 14)) (.reg (A 24)),
  UMULH (.reg (A 8)) (.reg (A 14)) (.reg (A 25)),
  ADDS (.reg (A 22)) (.reg (A 9)) (.reg (A 9)),
  ADCS (.reg (A 23)) (.reg (A 10)) (.reg (A 10)),
  ADC (.imm 0) (.reg (A 11)) (.reg (A 11)),
  ADDS (.reg (A 24)) (.reg (A 10)) (.reg (A 10)),
  ADC (.reg (A 25)) (.reg (A 11)) (.reg (A 11)),
  SUBS (.reg (A 3)) (.reg (A 15)) (.reg (A 15)),
  SBCS (.reg (A 4)) (.reg (A 16)) (.reg (A 16)),
  SBCS (.reg (A 5)) (.reg (A 17)) (.reg (A 17)),
  SBCS (.reg (A 9)) (.reg (A 19)) (.reg (A 19)),
  SBCS (.reg (A 10)) (.reg (A 20)) (.reg (A 20)),
  SBCS (.reg (A 11)) (.reg (A 21)) (.reg (A 21)),
  SBC (.imm 0) (.reg (A 26)) (.reg (A 26)),
  ADDS (.reg (A 3)) (.reg (A 19)) (.reg (A 19)),
  ADCS (.reg (A 4)) (.reg (A 20)) (.reg (A 20)),
  ADCS (.reg (A 5)) (.reg (A 21)) (.reg (A 21)),
  ADCS (.reg (A 26)) (.reg (A 9)) (.reg (A 22)),
  ADCS (.imm 0) (.reg (A 10)) (.reg (A 23)),
  ADC (.imm 0) (.reg (A 11)) (.reg (A 24)),
  -- p751/arith_arm64.s:676
  MOVD (.mem (A 2) 0) (.reg (A 12)),
  MOVD (.mem (A 2) 1) (.reg (A 13)),
  -- p751/arith_arm64.s:677
  MOVD (.mem (A 2) 6) (.reg (A 3)),
  MOVD (.mem (A 2) 7) (.reg (A 4)),
  -- p751/arith_arm64.s:678
  SUBS (.reg (A 12)) (.reg (A 3)) (.reg (A 3)),
  -- p751/arith_arm64.s:679
  MOVD (.mem (A 2) 8) (.reg (A 5)),
  MOVD (.mem (A 2) 9) (.reg (A 6)),
  -- p751/arith_arm64.s:680
  MOVD (.mem (A 2) 2) (.reg (A 14)),
  -- p751/arith_arm64.s:681
  SBCS (.reg (A 13)) (.reg (A 4)) (.reg (A 4)),
  -- p751/arith_arm64.s:682
  SBCS (.reg (A 14)) (.reg (A 5)) (.reg (A 5)),
  -- p751/arith_arm64.s:683
  MOVD (.mem (A 2) 10) (.reg (A 7)),
  MOVD (.mem (A 2) 11) (.reg (A 8)),
  -- p751/arith_arm64.s:684
  SBCS (.reg (A 15)) (.reg (A 6)) (.reg (A 6)),
  -- p751/arith_arm64.s:685
  SBCS (.reg (A 16)) (.reg (A 7)) (.reg (A 7)),
  -- p751/arith_arm64.s:686
  MOVD (.mem (A 2) 12) (.reg (A 9)),
  MOVD (.mem (A 2) 13) (.reg (A 10)),
  -- p751/arith_arm64.s:687
  SBCS (.reg (A 17)) (.reg (A 8)) (.reg (A 8)),
  -- p751/arith_arm64.s:688
  SBCS (.reg (A 19)) (.reg (A 9)) (.reg (A 9)),
  -- p751/arith_arm64.s:689
  MOVD (.mem (A 2) 14) (.reg (A 11)),
  MOVD (.mem (A 2) 15) (.reg (A 12)),
  -- p751/arith_arm64.s:690
  SBCS (.reg (A 20)) (.reg (A 10)) (.reg (A 10)),
  -- p751/arith_arm64.s:691
  SBCS (.reg (A 21)) (.reg (A 11)) (.reg (A 11)),
  -- p751/arith_arm64.s:692
  MOVD (.mem (A 2) 16) (.reg (A 13)),
  MOVD (.mem (A 2) 17) (.reg (A 14)),
  -- p751/arith_arm64.s:693
  SBCS (.reg (A 22)) (.reg (A 12)) (.reg (A 12)),
  -- p751/arith_arm64.s:694
  SBCS (.reg (A 23)) (.reg (A 13)) (.reg (A 13)),
  -- p751/arith_arm64.s:695
  SBCS (.reg (A 24)) (.reg (A 14)) (.reg (A 14)),
  -- p751/arith_arm64.s:696
  SBC (.imm 0) (.reg A29) (.reg A29),
  -- p751/arith_arm64.s:698
  MOVD (.reg (A 15)) (.mem (A 2) 3),
  MOVD (.reg (A 16)) (.mem (A 2) 4),
  -- p751/arith_arm64.s:699
  MOVD (.reg (A 17)) (.mem (A 2) 5),
  -- p751/arith_arm64.s:702
  ADDS (.reg (A 19)) (.reg (A 3)) (.reg (A 3)),
  -- p751/arith_arm64.s:703
  ADCS (.reg (A 20)) (.reg (A 4)) (.reg (A 4)),
  -- p751/arith_arm64.s:704
  MOVD (.reg (A 3)) (.mem (A 2) 6),
  MOVD (.reg (A 4)) (.mem (A 2) 7),
  -- p751/arith_arm64.s:705
  ADCS (.reg (A 21)) (.reg (A 5)) (.reg (A 5)),
  -- p751/arith_arm64.s:706
  ADCS (.reg (A 22)) (.reg (A 6)) (.reg (A 6)),
  -- p751/arith_arm64.s:707
  MOVD (.reg (A 5)) (.mem (A 2) 8),
  MOVD (.reg (A 6)) (.mem (A 2) 9),
  -- p751/arith_arm64.s:708
  ADCS (.reg (A 23)) (.reg (A 7)) (.reg (A 7)),
  -- p751/arith_arm64.s:709
  ADCS (.reg (A 24)) (.reg (A 8)) (.reg (A 8)),
  -- p751/arith_arm64.s:710
  MOVD (.reg (A 7)) (.mem (A 2) 10),
  MOVD (.reg (A 8)) (.mem (A 2) 11),
  -- p751/arith_arm64.s:711
  ADCS (.imm 0) (.reg (A 9)) (.reg (A 9)),
  -- p751/arith_arm64.s:712
  ADCS (.imm 0) (.reg (A 10)) (.reg (A 10)),
  -- p751/arith_arm64.s:713
  MOVD (.reg (A 9)) (.mem (A 2) 12),
  MOVD (.reg (A 10)) (.mem (A 2) 13),
  -- p751/arith_arm64.s:714
  ADCS (.imm 0) (.reg (A 11)) (.reg (A 11)),
  -- p751/arith_arm64.s:715
  ADCS (.imm 0) (.reg (A 12)) (.reg (A 12)),
  -- p751/arith_arm64.s:716
  MOVD (.reg (A 11)) (.mem (A 2) 14),
  MOVD (.reg (A 12)) (.mem (A 2) 15),
  -- p751/arith_arm64.s:717
  ADCS (.imm 0) (.reg (A 13)) (.reg (A 13)),
  -- p751/arith_arm64.s:718
  ADCS (.imm 0) (.reg (A 14)) (.reg (A 14)),
  -- p751/arith_arm64.s:719
  MOVD (.reg (A 13)) (.mem (A 2) 16),
  MOVD (.reg (A 14)) (.mem (A 2) 17),
  -- p751/arith_arm64.s:720
  ADC (.imm 0) (.reg A29) (.reg A29),
  -- p751/arith_arm64.s:723
  MOVD (.mem (A 0) 6) (.reg (A 3)),
  MOVD (.mem (A 0) 7) (.reg (A 4)),
  -- p751/arith_arm64.s:724
  MOVD (.mem (A 0) 8) (.reg (A 5)),
  MOVD (.mem (A 0) 9) (.reg (A 6)),
  -- p751/arith_arm64.s:725
  MOVD (.mem (A 0) 10) (.reg (A 7)),
  MOVD (.mem (A 0) 11) (.reg (A 8)),
  -- p751/arith_arm64.s:726
  MOVD (.mem (A 1) 6) (.reg (A 9)),
  MOVD (.mem (A 1) 7) (.reg (A 10)),
  -- p751/arith_arm64.s:727
  MOVD (.mem (A 1) 8) (.reg (A 11)),
  MOVD (.mem (A 1) 9) (.reg (A 12)),
  -- p751/arith_arm64.s:728
  MOVD (.mem (A 1) 10) (.reg (A 13)),
  MOVD (.mem (A 1) 11) (.reg (A 14)),
  -- p751/arith_arm64.s:731
  ADDS (.reg (A 3)) (.reg (A 6)) (.reg (A 6)),
  ADCS (.reg (A 4)) (.reg (A 7)) (.reg (A 7)),
  ADCS (.reg (A 5)) (.reg (A 8)) (.reg (A 8)),
  ADC (.imm 0) (.imm 0) (.reg (A 26)),
  ADDS (.reg (A 9)) (.reg (A 12)) (.reg (A 12)),
  ADCS (.reg (A 10)) (.reg (A 13)) (.reg (A 13)),
  ADCS (.reg (A 11)) (.reg (A 14)) (.reg (A 14)),
  ADC (.imm 0) (.imm 0) (.reg (A 22)),
  SUB (.reg (A 26)) (.imm 0) (.reg (A 23)),
  SUB (.reg (A 22)) (.imm 0) (.reg (A 24)),
  AND (.reg (A 22)) (.reg (A 26)) (.reg (A 26)),
  AND (.reg (A 23)) (.reg (A 12)) (.reg (A 15)),
  AND (.reg (A 23)) (.reg (A 13)) (.reg (A 16)),
  AND (.reg (A 23)) (.reg (A 14)) (.reg (A 17)),
  AND (.reg (A 24)) (.reg (A 6)) (.reg (A 19)),
  AND (.reg (A 24)) (.reg (A 7)) (.reg (A 20)),
  AND (.reg (A 24)) (.reg (A 8)) (.reg (A 21)),
  ADDS (.reg (A 19)) (.reg (A 15)) (.reg (A 15)),
  ADCS (.reg (A 20)) (.reg (A 16)) (.reg (A 16)),
  MOVD (.reg (A 15)) (.mem (A 2) 18),
  MOVD (.reg (A 16)) (.mem (A 2) 19),
  MUL (.reg (A 6)) (.reg (A 12)) (.reg (A 15)),
  MUL (.reg (A 6)) (.reg (A 13)) (.reg (A 16)),
  ADCS (.reg (A 21)) (.reg (A 17)) (.reg (A 17)),
  MOVD (.reg (A 17)) (.mem (A 2) 20),
  UMULH (.reg (A 6)) (.reg (A 13)) (.reg (A 17)),
  UMULH (.reg (A 6)) (.reg (A 12)) (.reg (A 19)),
  ADC (.imm 0) (.reg (A 26)) (.reg (A 26)),
  MUL (.reg (A 7)) (.reg (A 12)) (.reg (A 24)),
  UMULH (.reg (A 7)) (.reg (A 12)) (.reg (A 25)),
  ADDS (.reg (A 19)) (.reg (A 16)) (.reg (A 16)),
  ADCS (.imm 0) (.reg (A 17)) (.reg (A 17)),
  ADC (.imm 0) (.imm 0) (.reg (A 19)),
  MUL (.reg (A 6)) (.reg (A 14)) (.reg (A 22)),
  UMULH (.reg (A 6)) (.reg (A 14)) (.reg (A 23)),
  ADDS (.reg (A 24)) (.reg (A 16)) (.reg (A 16)),
  ADCS (.reg (A 25)) (.reg (A 17)) (.reg (A 17)),
  ADC (.imm 0) (.reg (A 19)) (.reg (A 19)),
  MUL (.reg (A 7)) (.reg (A 13)) (.reg (A 24)),
  UMULH (.reg (A 7)) (.reg (A 13)) (.reg (A 25)),
  ADDS (.reg (A 22)) (.reg (A 17)) (.reg (A 17)),
  ADCS (.reg (A 23)) (.reg (A 19)) (.reg (A 19)),
  ADC (.imm 0) (.imm 0) (.reg (A 20)),
  MUL (.reg (A 8)) (.reg (A 12)) (.reg (A 22)),
  UMULH (.reg (A 8)) (.reg (A 12)) (.reg (A 23)),
  ADDS (.reg (A 24)) (.reg (A 17)) (.reg (A 17)),
  ADCS (.reg (A 25)) (.reg (A 19)) (.reg (A 19)),
  ADC (.imm 0) (.reg (A 20)) (.reg (A 20)),
  MUL (.reg (A 7)) (.reg (A 14)) (.reg (A 24)),
  UMULH (.reg (A 7)) (.reg (A 14)) (.reg (A 25)),
  ADDS (.reg (A 22)) (.reg (A 17)) (.reg (A 17)),
  ADCS (.reg (A 23)) (.reg (A 19)) (.reg (A 19)),
  ADC (.imm 0) (.reg (A 20)) (.reg (A 20)),
  MUL (.reg (A 8)) (.reg (A 13)) (.reg (A 22)),
  UMULH (.reg (A 8)) (.reg (A 13)) (.reg (A 23)),
  ADDS (.reg (A 24)) (.reg (A 19)) (.reg (A 19)),
  ADCS (.reg (A 25)) (.reg (A 20)) (.reg (A 20)),
  ADC (.imm 0) (.imm 0) (.reg (A 21)),
  MUL (.reg (A 8)) (.reg (A 14)) (.reg (A 24)),
  UMULH (.reg (A 8)) (.reg (A 14)) (.reg (A 25)),
  ADDS (.reg (A 22)) (.reg (A 19)) (.reg (A 19)),
  ADCS (.reg (A 23)) (.reg (A 20)) (.reg (A 20)),
  ADC (.imm 0) (.reg (A 21)) (.reg (A 21)),
  ADDS (.reg (A 24)) (.reg (A 20)) (.reg (A 20)),
  ADC (.reg (A 25)) (.reg (A 21)) (.reg (A 21)),
  MUL (.reg (A 3)) (.reg (A 9)) (.reg (A 6)),
  MOVD (.mem (A 2) 18) (.reg (A 22)),
  MOVD (.mem (A 2) 19) (.reg (A 23)),
  MOVD (.mem (A 2) 20) (.reg (A 24)),
  UMULH (.reg (A 3)) (.reg (A 9)) (.reg (A 12)),
  ADDS (.reg (A 22)) (.reg (A 19)) (.reg (A 19)),
  ADCS (.reg (A 23)) (.reg (A 20)) (.reg (A 20)),
  MUL (.reg (A 3)) (.reg (A 10)) (.reg (A 7)),
  ADCS (.reg (A 24)) (.reg (A 21)) (.reg (A 21)),
  ADC (.imm 0) (.reg (A 26)) (.reg (A 26)),
  UMULH (.reg (A 3)) (.reg (A 10)) (.reg (A 8)),
  MUL (.reg (A 4)) (.reg (A 9)) (.reg (A 24)),
  UMULH (.reg (A 4)) (.reg (A 9)) (.reg (A 25)),
  ADDS (.reg (A 12)) (.reg (A 7)) (.reg (A 7)),
  ADCS (.imm 0) (.reg (A 8)) (.reg (A 8)),
  ADC (.imm 0) (.imm 0) (.reg (A 12)),
  MUL (.reg (A 3)) (.reg (A 11)) (.reg (A 22)),
  UMULH (.reg (A 3)) (.reg (A 11)) (.reg (A 23)),
  ADDS (.reg (A 24)) (.reg (A 7)) (.reg (A 7)),
  ADCS (.reg (A 25)) (.reg (A 8)) (.reg (A 8)),
  ADC (.imm 0) (.reg (A 12)) (.reg (A 12)),
  MUL (.reg (A 4)) (.reg (A 10)) (.reg (A 24)),
  UMULH (.reg (A 4)) (.reg (A 10)) (.reg (A 25)),
  ADDS (.reg (A 22)) (.reg (A 8)) (.reg (A 8)),
  ADCS (.reg (A 23)) (.reg (A 12)) (.reg (A 12)),
  ADC (.imm 0) (.imm 0) (.reg (A 13)),
  MUL (.reg (A 5)) (.reg (A 9)) (.reg (A 22)),
  UMULH (.reg (A 5)) (.reg (A 9)) (.reg (A 23)),
  ADDS (.reg (A 24)) (.reg (A 8)) (.reg (A 8)),
  ADCS (.reg (A 25)) (.reg (A 12)) (.reg (A 12)),
  ADC (.imm 0) (.reg (A 13)) (.reg (A 13)),
  MUL (.reg (A 4)) (.reg (A 11)) (.reg (A 24)),
  UMULH (.reg (A 4)) (.reg (A 11)) (.reg (A 25)),
  ADDS (.reg (A 22)) (.reg (A 8)) (.reg (A 8)),
  ADCS (.reg (A 23)) (.reg (A 12)) (.reg (A 12)),
  ADC (.imm 0) (.reg (A 13)) (.reg (A 13)),
  MUL (.reg (A 5)) (.reg (A 10)) (.reg (A 22)),
  UMULH (.reg (A 5)) (.reg (A 10)) (.reg (A 23)),
  ADDS (.reg (A 24)) (.reg (A 12)) (.reg (A 12)),
  ADCS (.reg (A 25)) (.reg (A 13)) (.reg (A 13)),
  ADC (.imm 0) (.imm 0) (.reg (A 14)),
  MUL (.reg (A 5)) (.reg (A 11)) (.reg (A 24)),
  UMULH (.reg (A 5)) (.reg (A 11)) (.reg (A 25)),
  ADDS (.reg (A 22)) (.reg (A 12)) (.reg (A 12)),
  ADCS (.reg (A 23)) (.reg (A 13)) (.reg (A 13)),
  ADC (.imm 0) (.reg (A 14)) (.reg (A 14)),
  ADDS (.reg (A 24)) (.reg (A 13)) (.reg (A 13)),
  ADC (.reg (A 25)) (.reg (A 14)) (.reg (A 14)),
  MOVD (.reg (A 6)) (.mem (A 2) 18),
  MOVD (.reg (A 7)) (.mem (A 2) 19),
  MOVD (.reg (A 8)) (.mem (A 2) 20),
  SUBS (.reg (A 6)) (.reg (A 15)) (.reg (A 15)),
  SBCS (.reg (A 7)) (.reg (A 16)) (.reg (A 16)),
  MOVD (.mem (A 0) 9) (.reg (A 6)),
  MOVD (.mem (A 0) 10) (.reg (A 7)),
  SBCS (.reg (A 8)) (.reg (A 17)) (.reg (A 17)),
  MOVD (.mem (A 0) 11) (.reg (A 8)),
  SBCS (.reg (A 12)) (.reg (A 19)) (.reg (A 19)),
  SBCS (.reg (A 13)) (.reg (A 20)) (.reg (A 20)),
  SBCS (.reg (A 14)) (.reg (A 21)) (.reg (A 21)),
  SBC (.imm 0) (.reg (A 26)) (.reg (A 26)),
  ADDS (.reg (A 12)) (.reg (A 15)) (.reg (A 15)),
  ADCS (.reg (A 13)) (.reg (A 16)) (.reg (A 16)),
  MOVD (.mem (A 1) 9) (.reg (A 12)),
  MOVD (.mem (A 1) 10) (.reg (A 13)),
  MUL (.reg (A 6)) (.reg (A 12)) (.reg (A 3)),
  ADCS (.reg (A 14)) (.reg (A 17)) (.reg (A 17)),
  UMULH (.reg (A 6)) (.reg (A 12)) (.reg (A 9)),
  MOVD (.mem (A 1) 11) (.reg (A 14)),
  MUL (.reg (A 6)) (.reg (A 13)) (.reg (A 4)),
  ADCS (.imm 0) (.reg (A 19)) (.reg (A 19)),
  UMULH (.reg (A 6)) (.reg (A 13)) (.reg (A 5)),
  ADCS (.imm 0) (.reg (A 20)) (.reg (A 20)),
  ADCS (.imm 0) (.reg (A 21)) (.reg (A 21)),
  ADC (.imm 0) (.reg (A 26)) (.reg (A 26)),
  MUL (.reg (A 7)) (.reg (A 12)) (.reg (A 24)),
  UMULH (.reg (A 7)) (.reg (A 12)) (.reg (A 25)),
  ADDS (.reg (A 9)) (.reg (A 4)) (.reg (A 4)),
  ADCS (.imm 0) (.reg (A 5)) (.reg (A 5)),
  ADC (.imm 0) (.imm 0) (.reg (A 9)),
  MUL (.reg (A 6)) (.reg (A 14)) (.reg (A 22)),
  UMULH (.reg (A 6)) (.reg (A 14)) (.reg (A 23)),
  ADDS (.reg (A 24)) (.reg (A 4)) (.reg (A 4)),
  ADCS (.reg (A 25)) (.reg (A 5)) (.reg (A 5)),
  ADC (.imm 0) (.reg (A 9)) (.reg (A 9)),
  MUL (.reg (A 7)) (.reg (A 13)) (.reg (A 24)),
  UMULH (.reg (A 7)) (.reg (A 13)) (.reg (A 25)),
  ADDS (.reg (A 22)) (.reg (A 5)) (.reg (A 5)),
  ADCS (.reg (A 23)) (.reg (A 9)) (.reg (A 9)),
  ADC (.imm 0) (.imm 0) (.reg (A 10)),
  MUL (.reg (A 8)) (.reg (A 12)) (.reg (A 22)),
  UMULH (.reg (A 8)) (.reg (A 12)) (.reg (A 23)),
  ADDS (.reg (A 24)) (.reg (A 5)) (.reg (A 5)),
  ADCS (.reg (A 25)) (.reg (A 9)) (.reg (A 9)),
  ADC (.imm 0) (.reg (A 10)) (.reg (A 10)),
  MUL (.reg (A 7)) (.reg (A 14)) (.reg (A 24)),
  UMULH (.reg (A 7)) (.reg (A 14)) (.reg (A 25)),
  ADDS (.reg (A 22)) (.reg (A 5)) (.reg (A 5)),
  ADCS (.reg (A 23)) (.reg (A 9)) (.reg (A 9)),
  ADC (.imm 0) (.reg (A 10)) (.reg (A 10)),
  MUL (.reg (A 8)) (.reg (A 13)) (.reg (A 22)),
  UMULH (.reg (A 8)) (.reg (A 13)) (.reg (A 23)),
  ADDS (.reg (A 24)) (.reg (A 9)) (.reg (A 9)),
  ADCS (.reg (A 25)) (.reg (A 10)) (.reg (A 10)),
  ADC (.imm 0) (.imm 0) (.reg (A 11)),
  MUL (.reg (A 8)) (.reg (A 14)) (.reg (A 24)),
  UMULH (.reg (A 8)) (.reg (A 14)) (.reg (A 25)),
  ADDS (.reg (A 22)) (.reg (A 9)) (.reg (A 9)),
  ADCS (.reg (A 23)) (.reg (A 10)) (.reg (A 10)),
  ADC (.imm 0) (.reg (A 11)) (.reg (A 11)),
  ADDS (.reg (A 24)) (.reg (A 10)) (.reg (A 10)),
  ADC (.reg (A 25)) (.reg (A 11)) (.reg (A 11)),
  SUBS (.reg (A 3)) (.reg (A 15)) (.reg (A 15)),
  SBCS (.reg (A 4)) (.reg (A 16)) (.reg (A 16)),
  SBCS (.reg (A 5)) (.reg (A 17)) (.reg (A 17)),
  SBCS (.reg (A 9)) (.reg (A 19)) (.reg (A 19)),
  SBCS (.reg (A 10)) (.reg (A 20)) (.reg (A 20)),
  SBCS (.reg (A 11)) (.reg (A 21)) (.reg (A 21)),
  SBC (.imm 0) (.reg (A 26)) (.reg (A 26)),
  ADDS (.reg (A 3)) (.reg (A 19)) (.reg (A 19)),
  ADCS (.reg (A 4)) (.reg (A 20)) (.reg (A 20)),
  ADCS (.reg (A 5)) (.reg (A 21)) (.reg (A 21)),
  ADCS (.reg (A 26)) (.reg (A 9)) (.reg (A 22)),
  ADCS (.imm 0) (.reg (A 10)) (.reg (A 23)),
  ADC (.imm 0) (.reg (A 11)) (.reg (A 24)),
  -- p751/arith_arm64.s:733
  MOVD (.mem (A 2) 18) (.reg (A 12)),
  MOVD (.mem (A 2) 19) (.reg (A 13)),
  -- p751/arith_arm64.s:734
  MOVD (.mem (A 2) 20) (.reg (A 14)),
  -- p751/arith_arm64.s:738
  MOVD (.mem (A 2) 6) (.reg (A 3)),
  MOVD (.mem (A 2) 7) (.reg (A 4)),
  -- p751/arith_arm64.s:739
  SUBS (.reg (A 12)) (.reg (A 3)) (.reg (A 3)),
  -- p751/arith_arm64.s:740
  MOVD (.mem (A 2) 8) (.reg (A 5)),
  MOVD (.mem (A 2) 9) (.reg (A 6)),
  -- p751/arith_arm64.s:741
  SBCS (.reg (A 13)) (.reg (A 4)) (.reg (A 4)),
  -- p751/arith_arm64.s:742
  SBCS (.reg (A 14)) (.reg (A 5)) (.reg (A 5)),
  -- p751/arith_arm64.s:743
  MOVD (.mem (A 2) 10) (.reg (A 7)),
  MOVD (.mem (A 2) 11) (.reg (A 8)),
  -- p751/arith_arm64.s:744
  SBCS (.reg (A 15)) (.reg (A 6)) (.reg (A 6)),
  -- p751/arith_arm64.s:745
  SBCS (.reg (A 16)) (.reg (A 7)) (.reg (A 7)),
  -- p751/arith_arm64.s:746
  MOVD (.mem (A 2) 12) (.reg (A 9)),
  MOVD (.mem (A 2) 13) (.reg (A 10)),
  -- p751/arith_arm64.s:747
  SBCS (.reg (A 17)) (.reg (A 8)) (.reg (A 8)),
  -- p751/arith_arm64.s:748
  SBCS (.reg (A 19)) (.reg (A 9)) (.reg (A 9)),
  -- p751/arith_arm64.s:749
  MOVD (.mem (A 2) 14) (.reg (A 11)),
  MOVD (.mem (A 2) 15) (.reg (A 12)),
  -- p751/arith_arm64.s:750
  SBCS (.reg (A 20)) (.reg (A 10)) (.reg (A 10)),
  -- p751/arith_arm64.s:751
  SBCS (.reg (A 21)) (.reg (A 11)) (.reg (A 11)),
  -- p751/arith_arm64.s:752
  MOVD (.mem (A 2) 16) (.reg (A 13)),
  MOVD (.mem (A 2) 17) (.reg (A 14)),
  -- p751/arith_arm64.s:753
  SBCS (.reg (A 22)) (.reg (A 12)) (.reg (A 12)),
  -- p751/arith_arm64.s:754
  SBCS (.reg (A 23)) (.reg (A 13)) (.reg (A 13)),
  -- p751/arith_arm64.s:755
  MOVD (.reg (A 3)) (.mem (A 2) 6),
  MOVD (.reg (A 4)) (.mem (A 2) 7),
  -- p751/arith_arm64.s:756
  SBCS (.reg (A 24)) (.reg (A 14)) (.reg (A 14)),
  -- p751/arith_arm64.s:757
  MOVD (.reg (A 5)) (.mem (A 2) 8),
  MOVD (.reg (A 6)) (.mem (A 2) 9),
  -- p751/arith_arm64.s:758
  SBC (.imm 0) (.reg A29) (.reg A29),
  -- p751/arith_arm64.s:759
  MOVD (.reg (A 7)) (.mem (A 2) 10),
  MOVD (.reg (A 8)) (.mem (A 2) 11),
  -- p751/arith_arm64.s:763
  MOVD (.mem (A 2) 18) (.reg (A 3)),
  MOVD (.mem (A 2) 19) (.reg (A 4)),
  -- p751/arith_arm64.s:764
  MOVD (.mem (A 2) 20) (.reg (A 5)),
  -- p751/arith_arm64.s:766
  ADDS (.reg (A 3)) (.reg (A 9)) (.reg (A 9)),
  -- p751/arith_arm64.s:767
  ADCS (.reg (A 4)) (.reg (A 10)) (.reg (A 10)),
  -- p751/arith_arm64.s:768
  MOVD (.reg (A 9)) (.mem (A 2) 12),
  MOVD (.reg (A 10)) (.mem (A 2) 13),
  -- p751/arith_arm64.s:769
  ADCS (.reg (A 5)) (.reg (A 11)) (.reg (A 11)),
  -- p751/arith_arm64.s:770
  ADCS (.reg (A 15)) (.reg (A 12)) (.reg (A 12)),
  -- p751/arith_arm64.s:771
  MOVD (.reg (A 11)) (.mem (A 2) 14),
  MOVD (.reg (A 12)) (.mem (A 2) 15),
  -- p751/arith_arm64.s:772
  ADCS (.reg (A 16)) (.reg (A 13)) (.reg (A 13)),
  -- p751/arith_arm64.s:773
  ADCS (.reg (A 17)) (.reg (A 14)) (.reg (A 14)),
  -- p751/arith_arm64.s:774
  MOVD (.reg (A 13)) (.mem (A 2) 16),
  MOVD (.reg (A 14)) (.mem (A 2) 17),
  -- p751/arith_arm64.s:776
  ADCS (.reg A29) (.reg (A 19)) (.reg (A 19)),
  -- p751/arith_arm64.s:777
  ADCS (.imm 0) (.reg (A 20)) (.reg (A 20)),
  -- p751/arith_arm64.s:778
  MOVD (.reg (A 19)) (.mem (A 2) 18),
  MOVD (.reg (A 20)) (.mem (A 2) 19),
  -- p751/arith_arm64.s:779
  ADCS (.imm 0) (.reg (A 21)) (.reg (A 21)),
  -- p751/arith_arm64.s:780
  ADCS (.imm 0) (.reg (A 22)) (.reg (A 22)),
  -- p751/arith_arm64.s:781
  MOVD (.reg (A 21)) (.mem (A 2) 20),
  MOVD (.reg (A 22)) (.mem (A 2) 21),
  -- p751/arith_arm64.s:782
  ADCS (.imm 0) (.reg (A 23)) (.reg (A 23)),
  -- p751/arith_arm64.s:783
  ADC (.imm 0) (.reg (A 24)) (.reg (A 24)),
  -- p751/arith_arm64.s:784
  MOVD (.reg (A 23)) (.mem (A 2) 22),
  MOVD (.reg (A 24)) (.mem (A 2) 23)
  ]

def mul : Routine := { code := mulCode, frame := 0, glob := [] }

/-- p751/arith_arm64.s:789-1413 `rdcP751` -/
def rdcCode : List Instr := [
  -- p751/arith_arm64.s:789
  MOVD (.mem FP 0) (.reg (A 0)),
  -- p751/arith_arm64.s:790
  MOVD (.mem FP 1) (.reg (A 1)),
  -- p751/arith_arm64.s:793
  MOVD (.glob 2 5) (.reg (A 14)),
  MOVD (.glob 2 6) (.reg (A 15)),
  -- p751/arith_arm64.s:796
  MOVD (.mem (A 1) 0) (.reg (A 2)),
  MOVD (.mem (A 1) 1) (.reg (A 3)),
  -- p751/arith_arm64.s:799
  MUL (.reg (A 2)) (.reg (A 14)) (.reg (A 22)),
  -- p751/arith_arm64.s:800
  MOVD (.mem (A 1) 4) (.reg (A 6)),
  MOVD (.mem (A 1) 5) (.reg (A 21)),
  -- p751/arith_arm64.s:801
  UMULH (.reg (A 2)) (.reg (A 14)) (.reg (A 23)),
  -- p751/arith_arm64.s:802
  ADDS (.reg (A 21)) (.reg (A 22)) (.reg (A 7)),
  -- p751/arith_arm64.s:803
  ADC (.imm 0) (.reg (A 23)) (.reg (A 25)),
  -- p751/arith_arm64.s:806
  MUL (.reg (A 2)) (.reg (A 15)) (.reg (A 22)),
  -- p751/arith_arm64.s:807
  MOVD (.mem (A 1) 6) (.reg (A 21)),
  -- p751/arith_arm64.s:808
  UMULH (.reg (A 2)) (.reg (A 15)) (.reg (A 23)),
  -- p751/arith_arm64.s:809
  ADDS (.reg (A 22)) (.reg (A 25)) (.reg (A 25)),
  -- p751/arith_arm64.s:810
  ADC (.reg (A 23)) (.imm 0) (.reg (A 26)),
  -- p751/arith_arm64.s:812
  MUL (.reg (A 3)) (.reg (A 14)) (.reg (A 22)),
  -- p751/arith_arm64.s:813
  MOVD (.glob 2 7) (.reg (A 16)),
  MOVD (.glob 2 8) (.reg (A 17)),
  -- p751/arith_arm64.s:814
  UMULH (.reg (A 3)) (.reg (A 14)) (.reg (A 23)),
  -- p751/arith_arm64.s:815
  ADDS (.reg (A 22)) (.reg (A 25)) (.reg (A 25)),
  -- p751/arith_arm64.s:816
  ADCS (.reg (A 23)) (.reg (A 26)) (.reg (A 26)),
  -- p751/arith_arm64.s:817
  ADC (.imm 0) (.imm 0) (.reg (A 24)),
  -- p751/arith_arm64.s:819
  ADDS (.reg (A 21)) (.reg (A 25)) (.reg (A 8)),
  -- p751/arith_arm64.s:820
  ADCS (.imm 0) (.reg (A 26)) (.reg (A 26)),
  -- p751/arith_arm64.s:821
  ADC (.imm 0) (.reg (A 24)) (.reg (A 24)),
  -- p751/arith_arm64.s:824
  MUL (.reg (A 2)) (.reg (A 16)) (.reg (A 22)),
  -- p751/arith_arm64.s:825
  MOVD (.mem (A 1) 7) (.reg (A 21)),
  -- p751/arith_arm64.s:826
  UMULH (.reg (A 2)) (.reg (A 16)) (.reg (A 23)),
  -- p751/arith_arm64.s:827
  ADDS (.reg (A 22)) (.reg (A 26)) (.reg (A 26)),
  -- p751/arith_arm64.s:828
  ADCS (.reg (A 23)) (.reg (A 24)) (.reg (A 24)),
  -- p751/arith_arm64.s:829
  ADC (.imm 0) (.imm 0) (.reg (A 25)),
  -- p751/arith_arm64.s:831
  MUL (.reg (A 3)) (.reg (A 15)) (.reg (A 22)),
  -- p751/arith_arm64.s:832
  MOVD (.mem (A 1) 2) (.reg (A 4)),
  MOVD (.mem (A 1) 3) (.reg (A 5)),
  -- p751/arith_arm64.s:833
  UMULH (.reg (A 3)) (.reg (A 15)) (.reg (A 23)),
  -- p751/arith_arm64.s:834
  ADDS (.reg (A 22)) (.reg (A 26)) (.reg (A 26)),
  -- p751/arith_arm64.s:835
  ADCS (.reg (A 23)) (.reg (A 24)) (.reg (A 24)),
  -- p751/arith_arm64.s:836
  ADC (.imm 0) (.reg (A 25)) (.reg (A 25)),
  -- p751/arith_arm64.s:838
  MUL (.reg (A 4)) (.reg (A 14)) (.reg (A 22)),
  -- p751/arith_arm64.s:839
  MOVD (.glob 2 9) (.reg A29),
  MOVD (.glob 2 10) (.reg (A 19)),
  -- p751/arith_arm64.s:840
  UMULH (.reg (A 4)) (.reg (A 14)) (.reg (A 23)),
  -- p751/arith_arm64.s:841
  ADDS (.reg (A 22)) (.reg (A 26)) (.reg (A 26)),
  -- p751/arith_arm64.s:842
  ADCS (.reg (A 23)) (.reg (A 24)) (.reg (A 24)),
  -- p751/arith_arm64.s:843
  ADC (.imm 0) (.reg (A 25)) (.reg (A 25)),
  -- p751/arith_arm64.s:845
  ADDS (.reg (A 21)) (.reg (A 26)) (.reg (A 9)),
  -- p751/arith_arm64.s:846
  ADCS (.imm 0) (.reg (A 24)) (.reg (A 24)),
  -- p751/arith_arm64.s:847
  ADC (.imm 0) (.reg (A 25)) (.reg (A 25)),
  -- p751/arith_arm64.s:850
  MUL (.reg (A 2)) (.reg (A 17)) (.reg (A 22)),
  -- p751/arith_arm64.s:851
  MOVD (.mem (A 1) 8) (.reg (A 21)),
  -- p751/arith_arm64.s:852
  UMULH (.reg (A 2)) (.reg (A 17)) (.reg (A 23)),
  -- p751/arith_arm64.s:853
  ADDS (.reg (A 22)) (.reg (A 24)) (.reg (A 24)),
  -- p751/arith_arm64.s:854
  ADCS (.reg (A 23)) (.reg (A 25)) (.reg (A 25)),
  -- p751/arith_arm64.s:855
  ADC (.imm 0) (.imm 0) (.reg (A 26)),
  -- p751/arith_arm64.s:857
  MUL (.reg (A 3)) (.reg (A 16)) (.reg (A 22)),
  -- p751/arith_arm64.s:858
  MOVD (.glob 2 11) (.reg (A 20)),
  -- p751/arith_arm64.s:859
  UMULH (.reg (A 3)) (.reg (A 16)) (.reg (A 23)),
  -- p751/arith_arm64.s:860
  ADDS (.reg (A 22)) (.reg (A 24)) (.reg (A 24)),
  -- p751/arith_arm64.s:861
  ADCS (.reg (A 23)) (.reg (A 25)) (.reg (A 25)),
  -- p751/arith_arm64.s:862
  ADC (.imm 0) (.reg (A 26)) (.reg (A 26)),
  -- p751/arith_arm64.s:864
  MUL (.reg (A 4)) (.reg (A 15)) (.reg (A 22)),
  -- p751/arith_arm64.s:865
  UMULH (.reg (A 4)) (.reg (A 15)) (.reg (A 23)),
  -- p751/arith_arm64.s:866
  ADDS (.reg (A 22)) (.reg (A 24)) (.reg (A 24)),
  -- p751/arith_arm64.s:867
  ADCS (.reg (A 23)) (.reg (A 25)) (.reg (A 25)),
  -- p751/arith_arm64.s:868
  ADC (.imm 0) (.reg (A 26)) (.reg (A 26)),
  -- p751/arith_arm64.s:870
  MUL (.reg (A 5)) (.reg (A 14)) (.reg (A 22)),
  -- p751/arith_arm64.s:871
  UMULH (.reg (A 5)) (.reg (A 14)) (.reg (A 23)),
  -- p751/arith_arm64.s:872
  ADDS (.reg (A 22)) (.reg (A 24)) (.reg (A 24)),
  -- p751/arith_arm64.s:873
  ADCS (.reg (A 23)) (.reg (A 25)) (.reg (A 25)),
  -- p751/arith_arm64.s:874
  ADC (.imm 0) (.reg (A 26)) (.reg (A 26)),
  -- p751/arith_arm64.s:876
  ADDS (.reg (A 24)) (.reg (A 21)) (.reg (A 10)),
  -- p751/arith_arm64.s:877
  ADCS (.imm 0) (.reg (A 25)) (.reg (A 25)),
  -- p751/arith_arm64.s:878
  ADC (.imm 0) (.reg (A 26)) (.reg (A 26)),
  -- p751/arith_arm64.s:881
  MUL (.reg (A 2)) (.reg A29) (.reg (A 22)),
  -- p751/arith_arm64.s:882
  MOVD (.mem (A 1) 9) (.reg (A 21)),
  -- p751/arith_arm64.s:883
  UMULH (.reg (A 2)) (.reg A29) (.reg (A 23)),
  -- p751/arith_arm64.s:884
  ADDS (.reg (A 22)) (.reg (A 25)) (.reg (A 25)),
  -- p751/arith_arm64.s:885
  ADCS (.reg (A 23)) (.reg (A 26)) (.reg (A 26)),
  -- p751/arith_arm64.s:886
  ADC (.imm 0) (.imm 0) (.reg (A 24)),
  -- p751/arith_arm64.s:888
  MUL (.reg (A 3)) (.reg (A 17)) (.reg (A 22)),
  -- p751/arith_arm64.s:889
  UMULH (.reg (A 3)) (.reg (A 17)) (.reg (A 23)),
  -- p751/arith_arm64.s:890
  ADDS (.reg (A 22)) (.reg (A 25)) (.reg (A 25)),
  -- p751/arith_arm64.s:891
  ADCS (.reg (A 23)) (.reg (A 26)) (.reg (A 26)),
  -- p751/arith_arm64.s:892
  ADC (.imm 0) (.reg (A 24)) (.reg (A 24)),
  -- p751/arith_arm64.s:894
  MUL (.reg (A 4)) (.reg (A 16)) (.reg (A 22)),
  -- p751/arith_arm64.s:895
  UMULH (.reg (A 4)) (.reg (A 16)) (.reg (A 23)),
  -- p751/arith_arm64.s:896
  ADDS (.reg (A 22)) (.reg (A 25)) (.reg (A 25)),
  -- p751/arith_arm64.s:897
  ADCS (.reg (A 23)) (.reg (A 26)) (.reg (A 26)),
  -- p751/arith_arm64.s:898
  ADC (.imm 0) (.reg (A 24)) (.reg (A 24)),
  -- p751/arith_arm64.s:900
  MUL (.reg (A 5)) (.reg (A 15)) (.reg (A 22)),
  -- p751/arith_arm64.s:901
  UMULH (.reg (A 5)) (.reg (A 15)) (.reg (A 23)),
  -- p751/arith_arm64.s:902
  ADDS (.reg (A 22)) (.reg (A 25)) (.reg (A 25)),
  -- p751/arith_arm64.s:903
  ADCS (.reg (A 23)) (.reg (A 26)) (.reg (A 26)),
  -- p751/arith_arm64.s:904
  ADC (.imm 0) (.reg (A 24)) (.reg (A 24)),
  -- p751/arith_arm64.s:906
  MUL (.reg (A 6)) (.reg (A 14)) (.reg (A 22)),
  -- p751/arith_arm64.s:907
  UMULH (.reg (A 6)) (.reg (A 14)) (.reg (A 23)),
  -- p751/arith_arm64.s:908
  ADDS (.reg (A 22)) (.reg (A 25)) (.reg (A 25)),
  -- p751/arith_arm64.s:909
  ADCS (.reg (A 23)) (.reg (A 26)) (.reg (A 26)),
  -- p751/arith_arm64.s:910
  ADC (.imm 0) (.reg (A 24)) (.reg (A 24)),
  -- p751/arith_arm64.s:912
  ADDS (.reg (A 21)) (.reg (A 25)) (.reg (A 11)),
  -- p751/arith_arm64.s:913
  ADCS (.imm 0) (.reg (A 26)) (.reg (A 26)),
  -- p751/arith_arm64.s:914
  ADC (.imm 0) (.reg (A 24)) (.reg (A 24)),
  -- p751/arith_arm64.s:917
  MUL (.reg (A 2)) (.reg (A 19)) (.reg (A 22)),
  -- p751/arith_arm64.s:918
  MOVD (.mem (A 1) 10) (.reg (A 21)),
  -- p751/arith_arm64.s:919
  UMULH (.reg (A 2)) (.reg (A 19)) (.reg (A 23)),
  -- p751/arith_arm64.s:920
  ADDS (.reg (A 22)) (.reg (A 26)) (.reg (A 26)),
  -- p751/arith_arm64.s:921
  ADCS (.reg (A 23)) (.reg (A 24)) (.reg (A 24)),
  -- p751/arith_arm64.s:922
  ADC (.imm 0) (.imm 0) (.reg (A 25)),
  -- p751/arith_arm64.s:924
  MUL (.reg (A 3)) (.reg A29) (.reg (A 22)),
  -- p751/arith_arm64.s:925
  UMULH (.reg (A 3)) (.reg A29) (.reg (A 23)),
  -- p751/arith_arm64.s:926
  ADDS (.reg (A 22)) (.reg (A 26)) (.reg (A 26)),
  -- p751/arith_arm64.s:927
  ADCS (.reg (A 23)) (.reg (A 24)) (.reg (A 24)),
  -- p751/arith_arm64.s:928
  ADC (.imm 0) (.reg (A 25)) (.reg (A 25)),
  -- p751/arith_arm64.s:930
  MUL (.reg (A 4)) (.reg (A 17)) (.reg (A 22)),
  -- p751/arith_arm64.s:931
  UMULH (.reg (A 4)) (.reg (A 17)) (.reg (A 23)),
  -- p751/arith_arm64.s:932
  ADDS (.reg (A 22)) (.reg (A 26)) (.reg (A 26)),
  -- p751/arith_arm64.s:933
  ADCS (.reg (A 23)) (.reg (A 24)) (.reg (A 24)),
  -- p751/arith_arm64.s:934
  ADC (.imm 0) (.reg (A 25)) (.reg (A 25)),
  -- p751/arith_arm64.s:936
  MUL (.reg (A 5)) (.reg (A 16)) (.reg (A 22)),
  -- p751/arith_arm64.s:937
  UMULH (.reg (A 5)) (.reg (A 16)) (.reg (A 23)),
  -- p751/arith_arm64.s:938
  ADDS (.reg (A 22)) (.reg (A 26)) (.reg (A 26)),
  -- p751/arith_arm64.s:939
  ADCS (.reg (A 23)) (.reg (A 24)) (.reg (A 24)),
  -- p751/arith_arm64.s:940
  ADC (.imm 0) (.reg (A 25)) (.reg (A 25)),
  -- p751/arith_arm64.s:942
  MUL (.reg (A 6)) (.reg (A 15)) (.reg (A 22)),
  -- p751/arith_arm64.s:943
  UMULH (.reg (A 6)) (.reg (A 15)) (.reg (A 23)),
  -- p751/arith_arm64.s:944
  ADDS (.reg (A 22)) (.reg (A 26)) (.reg (A 26)),
  -- p751/arith_arm64.s:945
  ADCS (.reg (A 23)) (.reg (A 24)) (.reg (A 24)),
  -- p751/arith_arm64.s:946
  ADC (.imm 0) (.reg (A 25)) (.reg (A 25)),
  -- p751/arith_arm64.s:948
  MUL (.reg (A 7)) (.reg (A 14)) (.reg (A 22)),
  -- p751/arith_arm64.s:949
  UMULH (.reg (A 7)) (.reg (A 14)) (.reg (A 23)),
  -- p751/arith_arm64.s:950
  ADDS (.reg (A 22)) (.reg (A 26)) (.reg (A 26)),
  -- p751/arith_arm64.s:951
  ADCS (.reg (A 23)) (.reg (A 24)) (.reg (A 24)),
  -- p751/arith_arm64.s:952
  ADC (.imm 0) (.reg (A 25)) (.reg (A 25)),
  -- p751/arith_arm64.s:954
  ADDS (.reg (A 21)) (.reg (A 26)) (.reg (A 12)),
  -- p751/arith_arm64.s:955
  ADCS (.imm 0) (.reg (A 24)) (.reg (A 24)),
  -- p751/arith_arm64.s:956
  ADC (.imm 0) (.reg (A 25)) (.reg (A 25)),
  -- p751/arith_arm64.s:959
  MUL (.reg (A 2)) (.reg (A 20)) (.reg (A 22)),
  -- p751/arith_arm64.s:960
  MOVD (.mem (A 1) 11) (.reg (A 21)),
  -- p751/arith_arm64.s:961
  UMULH (.reg (A 2)) (.reg (A 20)) (.reg (A 23)),
  -- p751/arith_arm64.s:962
  ADDS (.reg (A 22)) (.reg (A 24)) (.reg (A 24)),
  -- p751/arith_arm64.s:963
  ADCS (.reg (A 23)) (.reg (A 25)) (.reg (A 25)),
  -- p751/arith_arm64.s:964
  ADC (.imm 0) (.imm 0) (.reg (A 26)),
  -- p751/arith_arm64.s:966
  MUL (.reg (A 3)) (.reg (A 19)) (.reg (A 22)),
  -- p751/arith_arm64.s:967
  UMULH (.reg (A 3)) (.reg (A 19)) (.reg (A 23)),
  -- p751/arith_arm64.s:968
  ADDS (.reg (A 22)) (.reg (A 24)) (.reg (A 24)),
  -- p751/arith_arm64.s:969
  ADCS (.reg (A 23)) (.reg (A 25)) (.reg (A 25)),
  -- p751/arith_arm64.s:970
  ADC (.imm 0) (.reg (A 26)) (.reg (A 26)),
  -- p751/arith_arm64.s:972
  MUL (.reg (A 4)) (.reg A29) (.reg (A 22)),
  -- p751/arith_arm64.s:973
  UMULH (.reg (A 4)) (.reg A29) (.reg (A 23)),
  -- p751/arith_arm64.s:974
  ADDS (.reg (A 22)) (.reg (A 24)) (.reg (A 24)),
  -- p751/arith_arm64.s:975
  ADCS (.reg (A 23)) (.reg (A 25)) (.reg (A 25)),
  -- p751/arith_arm64.s:976
  ADC (.imm 0) (.reg (A 26)) (.reg (A 26)),
  -- p751/arith_arm64.s:978
  MUL (.reg (A 5)) (.reg (A 17)) (.reg (A 22)),
  -- p751/arith_arm64.s:979
  UMULH (.reg (A 5)) (.reg (A 17)) (.reg (A 23)),
  -- p751/arith_arm64.s:980
  ADDS (.reg (A 22)) (.reg (A 24)) (.reg (A 24)),
  -- p751/arith_arm64.s:981
  ADCS (.reg (A 23)) (.reg (A 25)) (.reg (A 25)),
  -- p751/arith_arm64.s:982
  ADC (.imm 0) (.reg (A 26)) (.reg (A 26)),
  -- p751/arith_arm64.s:984
  MUL (.reg (A 6)) (.reg (A 16)) (.reg (A 22)),
  -- p751/arith_arm64.s:985
  UMULH (.reg (A 6)) (.reg (A 16)) (.reg (A 23)),
  -- p751/arith_arm64.s:986
  ADDS (.reg (A 22)) (.reg (A 24)) (.reg (A 24)),
  -- p751/arith_arm64.s:987
  ADCS (.reg (A 23)) (.reg (A 25)) (.reg (A 25)),
  -- p751/arith_arm64.s:988
  ADC (.imm 0) (.reg (A 26)) (.reg (A 26)),
  -- p751/arith_arm64.s:990
  MUL (.reg (A 7)) (.reg (A 15)) (.reg (A 22)),
  -- p751/arith_arm64.s:991
  UMULH (.reg (A 7)) (.reg (A 15)) (.reg (A 23)),
  -- p751/arith_arm64.s:992
  ADDS (.reg (A 22)) (.reg (A 24)) (.reg (A 24)),
  -- p751/arith_arm64.s:993
  ADCS (.reg (A 23)) (.reg (A 25)) (.reg (A 25)),
  -- p751/arith_arm64.s:994
  ADC (.imm 0) (.reg (A 26)) (.reg (A 26)),
  -- p751/arith_arm64.s:996
  MUL (.reg (A 8)) (.reg (A 14)) (.reg (A 22)),
  -- p751/arith_arm64.s:997
  UMULH (.reg (A 8)) (.reg (A 14)) (.reg (A 23)),
  -- p751/arith_arm64.s:998
  ADDS (.reg (A 22)) (.reg (A 24)) (.reg (A 24)),
  -- p751/arith_arm64.s:999
  ADCS (.reg (A 23)) (.reg (A 25)) (.reg (A 25)),
  -- p751/arith_arm64.s:1000
  ADC (.imm 0) (.reg (A 26)) (.reg (A 26)),
  -- p751/arith_arm64.s:1002
  ADDS (.reg (A 21)) (.reg (A 24)) (.reg (A 13)),
  -- p751/arith_arm64.s:1003
  ADCS (.imm 0) (.reg (A 25)) (.reg (A 25)),
  -- p751/arith_arm64.s:1004
  ADC (.imm 0) (.reg (A 26)) (.reg (A 26)),
  -- p751/arith_arm64.s:1007
  MUL (.reg (A 3)) (.reg (A 20)) (.reg (A 22)),
  -- p751/arith_arm64.s:1008
  MOVD (.mem (A 1) 12) (.reg (A 21)),
  -- p751/arith_arm64.s:1009
  UMULH (.reg (A 3)) (.reg (A 20)) (.reg (A 23)),
  -- p751/arith_arm64.s:1010
  ADDS (.reg (A 22)) (.reg (A 25)) (.reg (A 25)),
  -- p751/arith_arm64.s:1011
  ADCS (.reg (A 23)) (.reg (A 26)) (.reg (A 26)),
  -- p751/arith_arm64.s:1012
  ADC (.imm 0) (.imm 0) (.reg (A 24)),
  -- p751/arith_arm64.s:1014
  MUL (.reg (A 4)) (.reg (A 19)) (.reg (A 22)),
  -- p751/arith_arm64.s:1015
  UMULH (.reg (A 4)) (.reg (A 19)) (.reg (A 23)),
  -- p751/arith_arm64.s:1016
  ADDS (.reg (A 22)) (.reg (A 25)) (.reg (A 25)),
  -- p751/arith_arm64.s:1017
  ADCS (.reg (A 23)) (.reg (A 26)) (.reg (A 26)),
  -- p751/arith_arm64.s:1018
  ADC (.imm 0) (.reg (A 24)) (.reg (A 24)),
  -- p751/arith_arm64.s:1020
  MUL (.reg (A 5)) (.reg A29) (.reg (A 22)),
  -- p751/arith_arm64.s:1021
  UMULH (.reg (A 5)) (.reg A29) (.reg (A 23)),
  -- p751/arith_arm64.s:1022
  ADDS (.reg (A 22)) (.reg (A 25)) (.reg (A 25)),
  -- p751/arith_arm64.s:1023
  ADCS (.reg (A 23)) (.reg (A 26)) (.reg (A 26)),
  -- p751/arith_arm64.s:1024
  ADC (.imm 0) (.reg (A 24)) (.reg (A 24)),
  -- p751/arith_arm64.s:1026
  MUL (.reg (A 6)) (.reg (A 17)) (.reg (A 22)),
  -- p751/arith_arm64.s:1027
  UMULH (.reg (A 6)) (.reg (A 17)) (.reg (A 23)),
  -- p751/arith_arm64.s:1028
  ADDS (.reg (A 22)) (.reg (A 25)) (.reg (A 25)),
  -- p751/arith_arm64.s:1029
  ADCS (.reg (A 23)) (.reg (A 26)) (.reg (A 26)),
  -- p751/arith_arm64.s:1030
  ADC (.imm 0) (.reg (A 24)) (.reg (A 24)),
  -- p751/arith_arm64.s:1032
  MUL (.reg (A 7)) (.reg (A 16)) (.reg (A 22)),
  -- p751/arith_arm64.s:1033
  UMULH (.reg (A 7)) (.reg (A 16)) (.reg (A 23)),
  -- p751/arith_arm64.s:1034
  ADDS (.reg (A 22)) (.reg (A 25)) (.reg (A 25)),
  -- p751/arith_arm64.s:1035
  ADCS (.reg (A 23)) (.reg (A 26)) (.reg (A 26)),
  -- p751/arith_arm64.s:1036
  ADC (.imm 0) (.reg (A 24)) (.reg (A 24)),
  -- p751/arith_arm64.s:1038
  MUL (.reg (A 8)) (.reg (A 15)) (.reg (A 22)),
  -- p751/arith_arm64.s:1039
  UMULH (.reg (A 8)) (.reg (A 15)) (.reg (A 23)),
  -- p751/arith_arm64.s:1040
  ADDS (.reg (A 22)) (.reg (A 25)) (.reg (A 25)),
  -- p751/arith_arm64.s:1041
  ADCS (.reg (A 23)) (.reg (A 26)) (.reg (A 26)),
  -- p751/arith_arm64.s:1042
  ADC (.imm 0) (.reg (A 24)) (.reg (A 24)),
  -- p751/arith_arm64.s:1044
  MUL (.reg (A 9)) (.reg (A 14)) (.reg (A 22)),
  -- p751/arith_arm64.s:1045
  UMULH (.reg (A 9)) (.reg (A 14)) (.reg (A 23)),
  -- p751/arith_arm64.s:1046
  ADDS (.reg (A 22)) (.reg (A 25)) (.reg (A 25)),
  -- p751/arith_arm64.s:1047
  ADCS (.reg (A 23)) (.reg (A 26)) (.reg (A 26)),
  -- p751/arith_arm64.s:1048
  ADC (.imm 0) (.reg (A 24)) (.reg (A 24)),
  -- p751/arith_arm64.s:1050
  ADDS (.reg (A 21)) (.reg (A 25)) (.reg (A 2)),
  -- p751/arith_arm64.s:1051
  ADCS (.imm 0) (.reg (A 26)) (.reg (A 26)),
  -- p751/arith_arm64.s:1052
  ADC (.imm 0) (.reg (A 24)) (.reg (A 24)),
  -- p751/arith_arm64.s:1055
  MUL (.reg (A 4)) (.reg (A 20)) (.reg (A 22)),
  -- p751/arith_arm64.s:1056
  MOVD (.mem (A 1) 13) (.reg (A 21)),
  -- p751/arith_arm64.s:1057
  UMULH (.reg (A 4)) (.reg (A 20)) (.reg (A 23)),
  -- p751/arith_arm64.s:1058
  ADDS (.reg (A 22)) (.reg (A 26)) (.reg (A 26)),
  -- p751/arith_arm64.s:1059
  ADCS (.reg (A 23)) (.reg (A 24)) (.reg (A 24)),
  -- p751/arith_arm64.s:1060
  ADC (.imm 0) (.imm 0) (.reg (A 25)),
  -- p751/arith_arm64.s:1062
  MUL (.reg (A 5)) (.reg (A 19)) (.reg (A 22)),
  -- p751/arith_arm64.s:1063
  UMULH (.reg (A 5)) (.reg (A 19)) (.reg (A 23)),
  -- p751/arith_arm64.s:1064
  ADDS (.reg (A 22)) (.reg (A 26)) (.reg (A 26)),
  -- p751/arith_arm64.s:1065
  ADCS (.reg (A 23)) (.reg (A 24)) (.reg (A 24)),
  -- p751/arith_arm64.s:1066
  ADC (.imm 0) (.reg (A 25)) (.reg (A 25)),
  -- p751/arith_arm64.s:1068
  MUL (.reg (A 6)) (.reg A29) (.reg (A 22)),
  -- p751/arith_arm64.s:1069
  UMULH (.reg (A 6)) (.reg A29) (.reg (A 23)),
  -- p751/arith_arm64.s:1070
  ADDS (.reg (A 22)) (.reg (A 26)) (.reg (A 26)),
  -- p751/arith_arm64.s:1071
  ADCS (.reg (A 23)) (.reg (A 24)) (.reg (A 24)),
  -- p751/arith_arm64.s:1072
  ADC (.imm 0) (.reg (A 25)) (.reg (A 25)),
  -- p751/arith_arm64.s:1074
  MUL (.reg (A 7)) (.reg (A 17)) (.reg (A 22)),
  -- p751/arith_arm64.s:1075
  UMULH (.reg (A 7)) (.reg (A 17)) (.reg (A 23)),
  -- p751/arith_arm64.s:1076
  ADDS (.reg (A 22)) (.reg (A 26)) (.reg (A 26)),
  -- p751/arith_arm64.s:1077
  ADCS (.reg (A 23)) (.reg (A 24)) (.reg (A 24)),
  -- p751/arith_arm64.s:1078
  ADC (.imm 0) (.reg (A 25)) (.reg (A 25)),
  -- p751/arith_arm64.s:1080
  MUL (.reg (A 8)) (.reg (A 16)) (.reg (A 22)),
  -- p751/arith_arm64.s:1081
  UMULH (.reg (A 8)) (.reg (A 16)) (.reg (A 23)),
  -- p751/arith_arm64.s:1082
  ADDS (.reg (A 22)) (.reg (A 26)) (.reg (A 26)),
  -- p751/arith_arm64.s:1083
  ADCS (.reg (A 23)) (.reg (A 24)) (.reg (A 24)),
  -- p751/arith_arm64.s:1084
  ADC (.imm 0) (.reg (A 25)) (.reg (A 25)),
  -- p751/arith_arm64.s:1086
  MUL (.reg (A 9)) (.reg (A 15)) (.reg (A 22)),
  -- p751/arith_arm64.s:1087
  UMULH (.reg (A 9)) (.reg (A 15)) (.reg (A 23)),
  -- p751/arith_arm64.s:1088
  ADDS (.reg (A 22)) (.reg (A 26)) (.reg (A 26)),
  -- p751/arith_arm64.s:1089
  ADCS (.reg (A 23)) (.reg (A 24)) (.reg (A 24)),
  -- p751/arith_arm64.s:1090
  ADC (.imm 0) (.reg (A 25)) (.reg (A 25)),
  -- p751/arith_arm64.s:1092
  MUL (.reg (A 10)) (.reg (A 14)) (.reg (A 22)),
  -- p751/arith_arm64.s:1093
  UMULH (.reg (A 10)) (.reg (A 14)) (.reg (A 23)),
  -- p751/arith_arm64.s:1094
  ADDS (.reg (A 22)) (.reg (A 26)) (.reg (A 26)),
  -- p751/arith_arm64.s:1095
  ADCS (.reg (A 23)) (.reg (A 24)) (.reg (A 24)),
  -- p751/arith_arm64.s:1096
  ADC (.imm 0) (.reg (A 25)) (.reg (A 25)),
  -- p751/arith_arm64.s:1098
  ADDS (.reg (A 21)) (.reg (A 26)) (.reg (A 3)),
  -- p751/arith_arm64.s:1099
  MOVD (.reg (A 2)) (.mem (A 0) 0),
  MOVD (.reg (A 3)) (.mem (A 0) 1),
  -- p751/arith_arm64.s:1100
  ADCS (.imm 0) (.reg (A 24)) (.reg (A 24)),
  -- p751/arith_arm64.s:1101
  ADC (.imm 0) (.reg (A 25)) (.reg (A 25)),
  -- p751/arith_arm64.s:1104
  MUL (.reg (A 5)) (.reg (A 20)) (.reg (A 22)),
  -- p751/arith_arm64.s:1105
  MOVD (.mem (A 1) 14) (.reg (A 21)),
  -- p751/arith_arm64.s:1106
  UMULH (.reg (A 5)) (.reg (A 20)) (.reg (A 23)),
  -- p751/arith_arm64.s:1107
  ADDS (.reg (A 22)) (.reg (A 24)) (.reg (A 24)),
  -- p751/arith_arm64.s:1108
  ADCS (.reg (A 23)) (.reg (A 25)) (.reg (A 25)),
  -- p751/arith_arm64.s:1109
  ADC (.imm 0) (.imm 0) (.reg (A 26)),
  -- p751/arith_arm64.s:1111
  MUL (.reg (A 6)) (.reg (A 19)) (.reg (A 22)),
  -- p751/arith_arm64.s:1112
  UMULH (.reg (A 6)) (.reg (A 19)) (.reg (A 23)),
  -- p751/arith_arm64.s:1113
  ADDS (.reg (A 22)) (.reg (A 24)) (.reg (A 24)),
  -- p751/arith_arm64.s:1114
  ADCS (.reg (A 23)) (.reg (A 25)) (.reg (A 25)),
  -- p751/arith_arm64.s:1115
  ADC (.imm 0) (.reg (A 26)) (.reg (A 26)),
  -- p751/arith_arm64.s:1117
  MUL (.reg (A 7)) (.reg A29) (.reg (A 22)),
  -- p751/arith_arm64.s:1118
  UMULH (.reg (A 7)) (.reg A29) (.reg (A 23)),
  -- p751/arith_arm64.s:1119
  ADDS (.reg (A 22)) (.reg (A 24)) (.reg (A 24)),
  -- p751/arith_arm64.s:1120
  ADCS (.reg (A 23)) (.reg (A 25)) (.reg (A 25)),
  -- p751/arith_arm64.s:1121
  ADC (.imm 0) (.reg (A 26)) (.reg (A 26)),
  -- p751/arith_arm64.s:1123
  MUL (.reg (A 8)) (.reg (A 17)) (.reg (A 22)),
  -- p751/arith_arm64.s:1124
  UMULH (.reg (A 8)) (.reg (A 17)) (.reg (A 23)),
  -- p751/arith_arm64.s:1125
  ADDS (.reg (A 22)) (.reg (A 24)) (.reg (A 24)),
  -- p751/arith_arm64.s:1126
  ADCS (.reg (A 23)) (.reg (A 25)) (.reg (A 25)),
  -- p751/arith_arm64.s:1127
  ADC (.imm 0) (.reg (A 26)) (.reg (A 26)),
  -- p751/arith_arm64.s:1129
  MUL (.reg (A 9)) (.reg (A 16)) (.reg (A 22)),
  -- p751/arith_arm64.s:1130
  UMULH (.reg (A 9)) (.reg (A 16)) (.reg (A 23)),
  -- p751/arith_arm64.s:1131
  ADDS (.reg (A 22)) (.reg (A 24)) (.reg (A 24)),
  -- p751/arith_arm64.s:1132
  ADCS (.reg (A 23)) (.reg (A 25)) (.reg (A 25)),
  -- p751/arith_arm64.s:1133
  ADC (.imm 0) (.reg (A 26)) (.reg (A 26)),
  -- p751/arith_arm64.s:1135
  MUL (.reg (A 10)) (.reg (A 15)) (.reg (A 22)),
  -- p751/arith_arm64.s:1136
  UMULH (.reg (A 10)) (.reg (A 15)) (.reg (A 23)),
  -- p751/arith_arm64.s:1137
  ADDS (.reg (A 22)) (.reg (A 24)) (.reg (A 24)),
  -- p751/arith_arm64.s:1138
  ADCS (.reg (A 23)) (.reg (A 25)) (.reg (A 25)),
  -- p751/arith_arm64.s:1139
  ADC (.imm 0) (.reg (A 26)) (.reg (A 26)),
  -- p751/arith_arm64.s:1141
  MUL (.reg (A 11)) (.reg (A 14)) (.reg (A 22)),
  -- p751/arith_arm64.s:1142
  UMULH (.reg (A 11)) (.reg (A 14)) (.reg (A 23)),
  -- p751/arith_arm64.s:1143
  ADDS (.reg (A 22)) (.reg (A 24)) (.reg (A 24)),
  -- p751/arith_arm64.s:1144
  ADCS (.reg (A 23)) (.reg (A 25)) (.reg (A 25)),
  -- p751/arith_arm64.s:1145
  ADC (.imm 0) (.reg (A 26)) (.reg (A 26)),
  -- p751/arith_arm64.s:1147
  ADDS (.reg (A 21)) (.reg (A 24)) (.reg (A 4)),
  -- p751/arith_arm64.s:1148
  ADCS (.imm 0) (.reg (A 25)) (.reg (A 25)),
  -- p751/arith_arm64.s:1149
  ADC (.imm 0) (.reg (A 26)) (.reg (A 26)),
  -- p751/arith_arm64.s:1152
  MUL (.reg (A 6)) (.reg (A 20)) (.reg (A 22)),
  -- p751/arith_arm64.s:1153
  MOVD (.mem (A 1) 15) (.reg (A 21)),
  -- p751/arith_arm64.s:1154
  UMULH (.reg (A 6)) (.reg (A 20)) (.reg (A 23)),
  -- p751/arith_arm64.s:1155
  ADDS (.reg (A 22)) (.reg (A 25)) (.reg (A 25)),
  -- p751/arith_arm64.s:1156
  ADCS (.reg (A 23)) (.reg (A 26)) (.reg (A 26)),
  -- p751/arith_arm64.s:1157
  ADC (.imm 0) (.imm 0) (.reg (A 24)),
  -- p751/arith_arm64.s:1159
  MUL (.reg (A 7)) (.reg (A 19)) (.reg (A 22)),
  -- p751/arith_arm64.s:1160
  UMULH (.reg (A 7)) (.reg (A 19)) (.reg (A 23)),
  -- p751/arith_arm64.s:1161
  ADDS (.reg (A 22)) (.reg (A 25)) (.reg (A 25)),
  -- p751/arith_arm64.s:1162
  ADCS (.reg (A 23)) (.reg (A 26)) (.reg (A 26)),
  -- p751/arith_arm64.s:1163
  ADC (.imm 0) (.reg (A 24)) (.reg (A 24)),
  -- p751/arith_arm64.s:1165
  MUL (.reg (A 8)) (.reg A29) (.reg (A 22)),
  -- p751/arith_arm64.s:1166
  UMULH (.reg (A 8)) (.reg A29) (.reg (A 23)),
  -- p751/arith_arm64.s:1167
  ADDS (.reg (A 22)) (.reg (A 25)) (.reg (A 25)),
  -- p751/arith_arm64.s:1168
  ADCS (.reg (A 23)) (.reg (A 26)) (.reg (A 26)),
  -- p751/arith_arm64.s:1169
  ADC (.imm 0) (.reg (A 24)) (.reg (A 24)),
  -- p751/arith_arm64.s:1171
  MUL (.reg (A 9)) (.reg (A 17)) (.reg (A 22)),
  -- p751/arith_arm64.s:1172
  UMULH (.reg (A 9)) (.reg (A 17)) (.reg (A 23)),
  -- p751/arith_arm64.s:1173
  ADDS (.reg (A 22)) (.reg (A 25)) (.reg (A 25)),
  -- p751/arith_arm64.s:1174
  ADCS (.reg (A 23)) (.reg (A 26)) (.reg (A 26)),
  -- p751/arith_arm64.s:1175
  ADC (.imm 0) (.reg (A 24)) (.reg (A 24)),
  -- p751/arith_arm64.s:1177
  MUL (.reg (A 10)) (.reg (A 16)) (.reg (A 22)),
  -- p751/arith_arm64.s:1178
  UMULH (.reg (A 10)) (.reg (A 16)) (.reg (A 23)),
  -- p751/arith_arm64.s:1179
  ADDS (.reg (A 22)) (.reg (A 25)) (.reg (A 25)),
  -- p751/arith_arm64.s:1180
  ADCS (.reg (A 23)) (.reg (A 26)) (.reg (A 26)),
  -- p751/arith_arm64.s:1181
  ADC (.imm 0) (.reg (A 24)) (.reg (A 24)),
  -- p751/arith_arm64.s:1183
  MUL (.reg (A 11)) (.reg (A 15)) (.reg (A 22)),
  -- p751/arith_arm64.s:1184
  UMULH (.reg (A 11)) (.reg (A 15)) (.reg (A 23)),
  -- p751/arith_arm64.s:1185
  ADDS (.reg (A 22)) (.reg (A 25)) (.reg (A 25)),
  -- p751/arith_arm64.s:1186
  ADCS (.reg (A 23)) (.reg (A 26)) (.reg (A 26)),
  -- p751/arith_arm64.s:1187
  ADC (.imm 0) (.reg (A 24)) (.reg (A 24)),
  -- p751/arith_arm64.s:1189
  MUL (.reg (A 12)) (.reg (A 14)) (.reg (A 22)),
  -- p751/arith_arm64.s:1190
  UMULH (.reg (A 12)) (.reg (A 14)) (.reg (A 23)),
  -- p751/arith_arm64.s:1191
  ADDS (.reg (A 22)) (.reg (A 25)) (.reg (A 25)),
  -- p751/arith_arm64.s:1192
  ADCS (.reg (A 23)) (.reg (A 26)) (.reg (A 26)),
  -- p751/arith_arm64.s:1193
  ADC (.imm 0) (.reg (A 24)) (.reg (A 24)),
  -- p751/arith_arm64.s:1195
  ADDS (.reg (A 21)) (.reg (A 25)) (.reg (A 5)),
  -- p751/arith_arm64.s:1196
  MOVD (.reg (A 4)) (.mem (A 0) 2),
  MOVD (.reg (A 5)) (.mem (A 0) 3),
  -- p751/arith_arm64.s:1197
  ADCS (.imm 0) (.reg (A 26)) (.reg (A 26)),
  -- p751/arith_arm64.s:1198
  ADC (.imm 0) (.reg (A 24)) (.reg (A 24)),
  -- p751/arith_arm64.s:1201
  MUL (.reg (A 7)) (.reg (A 20)) (.reg (A 22)),
  -- p751/arith_arm64.s:1202
  MOVD (.mem (A 1) 16) (.reg (A 21)),
  -- p751/arith_arm64.s:1203
  UMULH (.reg (A 7)) (.reg (A 20)) (.reg (A 23)),
  -- p751/arith_arm64.s:1204
  ADDS (.reg (A 22)) (.reg (A 26)) (.reg (A 26)),
  -- p751/arith_arm64.s:1205
  ADCS (.reg (A 23)) (.reg (A 24)) (.reg (A 24)),
  -- p751/arith_arm64.s:1206
  ADC (.imm 0) (.imm 0) (.reg (A 25)),
  -- p751/arith_arm64.s:1208
  MUL (.reg (A 8)) (.reg (A 19)) (.reg (A 22)),
  -- p751/arith_arm64.s:1209
  UMULH (.reg (A 8)) (.reg (A 19)) (.reg (A 23)),
  -- p751/arith_arm64.s:1210
  ADDS (.reg (A 22)) (.reg (A 26)) (.reg (A 26)),
  -- p751/arith_arm64.s:1211
  ADCS (.reg (A 23)) (.reg (A 24)) (.reg (A 24)),
  -- p751/arith_arm64.s:1212
  ADC (.imm 0) (.reg (A 25)) (.reg (A 25)),
  -- p751/arith_arm64.s:1214
  MUL (.reg (A 9)) (.reg A29) (.reg (A 22)),
  -- p751/arith_arm64.s:1215
  UMULH (.reg (A 9)) (.reg A29) (.reg (A 23)),
  -- p751/arith_arm64.s:1216
  ADDS (.reg (A 22)) (.reg (A 26)) (.reg (A 26)),
  -- p751/arith_arm64.s:1217
  ADCS (.reg (A 23)) (.reg (A 24)) (.reg (A 24)),
  -- p751/arith_arm64.s:1218
  ADC (.imm 0) (.reg (A 25)) (.reg (A 25)),
  -- p751/arith_arm64.s:1220
  MUL (.reg (A 10)) (.reg (A 17)) (.reg (A 22)),
  -- p751/arith_arm64.s:1221
  UMULH (.reg (A 10)) (.reg (A 17)) (.reg (A 23)),
  -- p751/arith_arm64.s:1222
  ADDS (.reg (A 22)) (.reg (A 26)) (.reg (A 26)),
  -- p751/arith_arm64.s:1223
  ADCS (.reg (A 23)) (.reg (A 24)) (.reg (A 24)),
  -- p751/arith_arm64.s:1224
  ADC (.imm 0) (.reg (A 25)) (.reg (A 25)),
  -- p751/arith_arm64.s:1226
  MUL (.reg (A 11)) (.reg (A 16)) (.reg (A 22)),
  -- p751/arith_arm64.s:1227
  UMULH (.reg (A 11)) (.reg (A 16)) (.reg (A 23)),
  -- p751/arith_arm64.s:1228
  ADDS (.reg (A 22)) (.reg (A 26)) (.reg (A 26)),
  -- p751/arith_arm64.s:1229
  ADCS (.reg (A 23)) (.reg (A 24)) (.reg (A 24)),
  -- p751/arith_arm64.s:1230
  ADC (.imm 0) (.reg (A 25)) (.reg (A 25)),
  -- p751/arith_arm64.s:1232
  MUL (.reg (A 12)) (.reg (A 15)) (.reg (A 22)),
  -- p751/arith_arm64.s:1233
  UMULH (.reg (A 12)) (.reg (A 15)) (.reg (A 23)),
  -- p751/arith_arm64.s:1234
  ADDS (.reg (A 22)) (.reg (A 26)) (.reg (A 26)),
  -- p751/arith_arm64.s:1235
  ADCS (.reg (A 23)) (.reg (A 24)) (.reg (A 24)),
  -- p751/arith_arm64.s:1236
  ADC (.imm 0) (.reg (A 25)) (.reg (A 25)),
  -- p751/arith_arm64.s:1238
  MUL (.reg (A 13)) (.reg (A 14)) (.reg (A 22)),
  -- p751/arith_arm64.s:1239
  UMULH (.reg (A 13)) (.reg (A 14)) (.reg (A 23)),
  -- p751/arith_arm64.s:1240
  ADDS (.reg (A 22)) (.reg (A 26)) (.reg (A 26)),
  -- p751/arith_arm64.s:1241
  ADCS (.reg (A 23)) (.reg (A 24)) (.reg (A 24)),
  -- p751/arith_arm64.s:1242
  ADC (.imm 0) (.reg (A 25)) (.reg (A 25)),
  -- p751/arith_arm64.s:1244
  ADDS (.reg (A 21)) (.reg (A 26)) (.reg (A 6)),
  -- p751/arith_arm64.s:1245
  ADCS (.imm 0) (.reg (A 24)) (.reg (A 24)),
  -- p751/arith_arm64.s:1246
  ADC (.imm 0) (.reg (A 25)) (.reg (A 25)),
  -- p751/arith_arm64.s:1249
  MUL (.reg (A 8)) (.reg (A 20)) (.reg (A 22)),
  -- p751/arith_arm64.s:1250
  MOVD (.mem (A 1) 17) (.reg (A 21)),
  -- p751/arith_arm64.s:1251
  UMULH (.reg (A 8)) (.reg (A 20)) (.reg (A 23)),
  -- p751/arith_arm64.s:1252
  ADDS (.reg (A 22)) (.reg (A 24)) (.reg (A 24)),
  -- p751/arith_arm64.s:1253
  ADCS (.reg (A 23)) (.reg (A 25)) (.reg (A 25)),
  -- p751/arith_arm64.s:1254
  ADC (.imm 0) (.imm 0) (.reg (A 26)),
  -- p751/arith_arm64.s:1256
  MUL (.reg (A 9)) (.reg (A 19)) (.reg (A 22)),
  -- p751/arith_arm64.s:1257
  UMULH (.reg (A 9)) (.reg (A 19)) (.reg (A 23)),
  -- p751/arith_arm64.s:1258
  ADDS (.reg (A 22)) (.reg (A 24)) (.reg (A 24)),
  -- p751/arith_arm64.s:1259
  ADCS (.reg (A 23)) (.reg (A 25)) (.reg (A 25)),
  -- p751/arith_arm64.s:1260
  ADC (.imm 0) (.reg (A 26)) (.reg (A 26)),
  -- p751/arith_arm64.s:1262
  MUL (.reg (A 10)) (.reg A29) (.reg (A 22)),
  -- p751/arith_arm64.s:1263
  UMULH (.reg (A 10)) (.reg A29) (.reg (A 23)),
  -- p751/arith_arm64.s:1264
  ADDS (.reg (A 22)) (.reg (A 24)) (.reg (A 24)),
  -- p751/arith_arm64.s:1265
  ADCS (.reg (A 23)) (.reg (A 25)) (.reg (A 25)),
  -- p751/arith_arm64.s:1266
  ADC (.imm 0) (.reg (A 26)) (.reg (A 26)),
  -- p751/arith_arm64.s:1268
  MUL (.reg (A 11)) (.reg (A 17)) (.reg (A 22)),
  -- p751/arith_arm64.s:1269
  UMULH (.reg (A 11)) (.reg (A 17)) (.reg (A 23)),
  -- p751/arith_arm64.s:1270
  ADDS (.reg (A 22)) (.reg (A 24)) (.reg (A 24)),
  -- p751/arith_arm64.s:1271
  ADCS (.reg (A 23)) (.reg (A 25)) (.reg (A 25)),
  -- p751/arith_arm64.s:1272
  ADC (.imm 0) (.reg (A 26)) (.reg (A 26)),
  -- p751/arith_arm64.s:1274
  MUL (.reg (A 12)) (.reg (A 16)) (.reg (A 22)),
  -- p751/arith_arm64.s:1275
  UMULH (.reg (A 12)) (.reg (A 16)) (.reg (A 23)),
  -- p751/arith_arm64.s:1276
  ADDS (.reg (A 22)) (.reg (A 24)) (.reg (A 24)),
  -- p751/arith_arm64.s:1277
  ADCS (.reg (A 23)) (.reg (A 25)) (.reg (A 25)),
  -- p751/arith_arm64.s:1278
  ADC (.imm 0) (.reg (A 26)) (.reg (A 26)),
  -- p751/arith_arm64.s:1280
  MUL (.reg (A 13)) (.reg (A 15)) (.reg (A 22)),
  -- p751/arith_arm64.s:1281
  UMULH (.reg (A 13)) (.reg (A 15)) (.reg (A 23)),
  -- p751/arith_arm64.s:1282
  ADDS (.reg (A 22)) (.reg (A 24)) (.reg (A 24)),
  -- p751/arith_arm64.s:1283
  ADCS (.reg (A 23)) (.reg (A 25)) (.reg (A 25)),
  -- p751/arith_arm64.s:1284
  ADC (.imm 0) (.reg (A 26)) (.reg (A 26)),
  -- p751/arith_arm64.s:1286
  ADDS (.reg (A 21)) (.reg (A 24)) (.reg (A 7)),
  -- p751/arith_arm64.s:1287
  MOVD (.reg (A 6)) (.mem (A 0) 4),
  MOVD (.reg (A 7)) (.mem (A 0) 5),
  -- p751/arith_arm64.s:1288
  ADCS (.imm 0) (.reg (A 25)) (.reg (A 25)),
  -- p751/arith_arm64.s:1289
  ADC (.imm 0) (.reg (A 26)) (.reg (A 26)),
  -- p751/arith_arm64.s:1292
  MUL (.reg (A 9)) (.reg (A 20)) (.reg (A 22)),
  -- p751/arith_arm64.s:1293
  MOVD (.mem (A 1) 18) (.reg (A 21)),
  -- p751/arith_arm64.s:1294
  UMULH (.reg (A 9)) (.reg (A 20)) (.reg (A 23)),
  -- p751/arith_arm64.s:1295
  ADDS (.reg (A 22)) (.reg (A 25)) (.reg (A 25)),
  -- p751/arith_arm64.s:1296
  ADCS (.reg (A 23)) (.reg (A 26)) (.reg (A 26)),
  -- p751/arith_arm64.s:1297
  ADC (.imm 0) (.imm 0) (.reg (A 24)),
  -- p751/arith_arm64.s:1299
  MUL (.reg (A 10)) (.reg (A 19)) (.reg (A 22)),
  -- p751/arith_arm64.s:1300
  UMULH (.reg (A 10)) (.reg (A 19)) (.reg (A 23)),
  -- p751/arith_arm64.s:1301
  ADDS (.reg (A 22)) (.reg (A 25)) (.reg (A 25)),
  -- p751/arith_arm64.s:1302
  ADCS (.reg (A 23)) (.reg (A 26)) (.reg (A 26)),
  -- p751/arith_arm64.s:1303
  ADC (.imm 0) (.reg (A 24)) (.reg (A 24)),
  -- p751/arith_arm64.s:1305
  MUL (.reg (A 11)) (.reg A29) (.reg (A 22)),
  -- p751/arith_arm64.s:1306
  UMULH (.reg (A 11)) (.reg A29) (.reg (A 23)),
  -- p751/arith_arm64.s:1307
  ADDS (.reg (A 22)) (.reg (A 25)) (.reg (A 25)),
  -- p751/arith_arm64.s:1308
  ADCS (.reg (A 23)) (.reg (A 26)) (.reg (A 26)),
  -- p751/arith_arm64.s:1309
  ADC (.imm 0) (.reg (A 24)) (.reg (A 24)),
  -- p751/arith_arm64.s:1311
  MUL (.reg (A 12)) (.reg (A 17)) (.reg (A 22)),
  -- p751/arith_arm64.s:1312
  UMULH (.reg (A 12)) (.reg (A 17)) (.reg (A 23)),
  -- p751/arith_arm64.s:1313
  ADDS (.reg (A 22)) (.reg (A 25)) (.reg (A 25)),
  -- p751/arith_arm64.s:1314
  ADCS (.reg (A 23)) (.reg (A 26)) (.reg (A 26)),
  -- p751/arith_arm64.s:1315
  ADC (.imm 0) (.reg (A 24)) (.reg (A 24)),
  -- p751/arith_arm64.s:1317
  MUL (.reg (A 13)) (.reg (A 16)) (.reg (A 22)),
  -- p751/arith_arm64.s:1318
  UMULH (.reg (A 13)) (.reg (A 16)) (.reg (A 23)),
  -- p751/arith_arm64.s:1319
  ADDS (.reg (A 22)) (.reg (A 25)) (.reg (A 25)),
  -- p751/arith_arm64.s:1320
  ADCS (.reg (A 23)) (.reg (A 26)) (.reg (A 26)),
  -- p751/arith_arm64.s:1321
  ADC (.imm 0) (.reg (A 24)) (.reg (A 24)),
  -- p751/arith_arm64.s:1323
  ADDS (.reg (A 21)) (.reg (A 25)) (.reg (A 8)),
  -- p751/arith_arm64.s:1324
  ADCS (.imm 0) (.reg (A 26)) (.reg (A 26)),
  -- p751/arith_arm64.s:1325
  ADC (.imm 0) (.reg (A 24)) (.reg (A 24)),
  -- p751/arith_arm64.s:1328
  MUL (.reg (A 10)) (.reg (A 20)) (.reg (A 22)),
  -- p751/arith_arm64.s:1329
  MOVD (.mem (A 1) 19) (.reg (A 21)),
  -- p751/arith_arm64.s:1330
  UMULH (.reg (A 10)) (.reg (A 20)) (.reg (A 23)),
  -- p751/arith_arm64.s:1331
  ADDS (.reg (A 22)) (.reg (A 26)) (.reg (A 26)),
  -- p751/arith_arm64.s:1332
  ADCS (.reg (A 23)) (.reg (A 24)) (.reg (A 24)),
  -- p751/arith_arm64.s:1333
  ADC (.imm 0) (.imm 0) (.reg (A 25)),
  -- p751/arith_arm64.s:1335
  MUL (.reg (A 11)) (.reg (A 19)) (.reg (A 22)),
  -- p751/arith_arm64.s:1336
  UMULH (.reg (A 11)) (.reg (A 19)) (.reg (A 23)),
  -- p751/arith_arm64.s:1337
  ADDS (.reg (A 22)) (.reg (A 26)) (.reg (A 26)),
  -- p751/arith_arm64.s:1338
  ADCS (.reg (A 23)) (.reg (A 24)) (.reg (A 24)),
  -- p751/arith_arm64.s:1339
  ADC (.imm 0) (.reg (A 25)) (.reg (A 25)),
  -- p751/arith_arm64.s:1341
  MUL (.reg (A 12)) (.reg A29) (.reg (A 22)),
  -- p751/arith_arm64.s:1342
  UMULH (.reg (A 12)) (.reg A29) (.reg (A 23)),
  -- p751/arith_arm64.s:1343
  ADDS (.reg (A 22)) (.reg (A 26)) (.reg (A 26)),
  -- p751/arith_arm64.s:1344
  ADCS (.reg (A 23)) (.reg (A 24)) (.reg (A 24)),
  -- p751/arith_arm64.s:1345
  ADC (.imm 0) (.reg (A 25)) (.reg (A 25)),
  -- p751/arith_arm64.s:1347
  MUL (.reg (A 13)) (.reg (A 17)) (.reg (A 22)),
  -- p751/arith_arm64.s:1348
  UMULH (.reg (A 13)) (.reg (A 17)) (.reg (A 23)),
  -- p751/arith_arm64.s:1349
  ADDS (.reg (A 22)) (.reg (A 26)) (.reg (A 26)),
  -- p751/arith_arm64.s:1350
  ADCS (.reg (A 23)) (.reg (A 24)) (.reg (A 24)),
  -- p751/arith_arm64.s:1351
  ADC (.imm 0) (.reg (A 25)) (.reg (A 25)),
  -- p751/arith_arm64.s:1353
  ADDS (.reg (A 21)) (.reg (A 26)) (.reg (A 9)),
  -- p751/arith_arm64.s:1354
  MOVD (.reg (A 8)) (.mem (A 0) 6),
  MOVD (.reg (A 9)) (.mem (A 0) 7),
  -- p751/arith_arm64.s:1355
  ADCS (.imm 0) (.reg (A 24)) (.reg (A 24)),
  -- p751/arith_arm64.s:1356
  ADC (.imm 0) (.reg (A 25)) (.reg (A 25)),
  -- p751/arith_arm64.s:1359
  MUL (.reg (A 11)) (.reg (A 20)) (.reg (A 22)),
  -- p751/arith_arm64.s:1360
  MOVD (.mem (A 1) 20) (.reg (A 21)),
  -- p751/arith_arm64.s:1361
  UMULH (.reg (A 11)) (.reg (A 20)) (.reg (A 23)),
  -- p751/arith_arm64.s:1362
  ADDS (.reg (A 22)) (.reg (A 24)) (.reg (A 24)),
  -- p751/arith_arm64.s:1363
  ADCS (.reg (A 23)) (.reg (A 25)) (.reg (A 25)),
  -- p751/arith_arm64.s:1364
  ADC (.imm 0) (.imm 0) (.reg (A 26)),
  -- p751/arith_arm64.s:1366
  MUL (.reg (A 12)) (.reg (A 19)) (.reg (A 22)),
  -- p751/arith_arm64.s:1367
  UMULH (.reg (A 12)) (.reg (A 19)) (.reg (A 23)),
  -- p751/arith_arm64.s:1368
  ADDS (.reg (A 22)) (.reg (A 24)) (.reg (A 24)),
  -- p751/arith_arm64.s:1369
  ADCS (.reg (A 23)) (.reg (A 25)) (.reg (A 25)),
  -- p751/arith_arm64.s:1370
  ADC (.imm 0) (.reg (A 26)) (.reg (A 26)),
  -- p751/arith_arm64.s:1372
  MUL (.reg (A 13)) (.reg A29) (.reg (A 22)),
  -- p751/arith_arm64.s:1373
  UMULH (.reg (A 13)) (.reg A29) (.reg (A 23)),
  -- p751/arith_arm64.s:1374
  ADDS (.reg (A 22)) (.reg (A 24)) (.reg (A 24)),
  -- p751/arith_arm64.s:1375
  ADCS (.reg (A 23)) (.reg (A 25)) (.reg (A 25)),
  -- p751/arith_arm64.s:1376
  ADC (.imm 0) (.reg (A 26)) (.reg (A 26)),
  -- p751/arith_arm64.s:1378
  ADDS (.reg (A 21)) (.reg (A 24)) (.reg (A 10)),
  -- p751/arith_arm64.s:1379
  ADCS (.imm 0) (.reg (A 25)) (.reg (A 25)),
  -- p751/arith_arm64.s:1380
  ADC (.imm 0) (.reg (A 26)) (.reg (A 26)),
  -- p751/arith_arm64.s:1383
  MUL (.reg (A 12)) (.reg (A 20)) (.reg (A 22)),
  -- p751/arith_arm64.s:1384
  MOVD (.mem (A 1) 21) (.reg (A 21)),
  -- p751/arith_arm64.s:1385
  UMULH (.reg (A 12)) (.reg (A 20)) (.reg (A 23)),
  -- p751/arith_arm64.s:1386
  ADDS (.reg (A 22)) (.reg (A 25)) (.reg (A 25)),
  -- p751/arith_arm64.s:1387
  ADCS (.reg (A 23)) (.reg (A 26)) (.reg (A 26)),
  -- p751/arith_arm64.s:1388
  ADC (.imm 0) (.imm 0) (.reg (A 24)),
  -- p751/arith_arm64.s:1390
  MUL (.reg (A 13)) (.reg (A 19)) (.reg (A 22)),
  -- p751/arith_arm64.s:1391
  UMULH (.reg (A 13)) (.reg (A 19)) (.reg (A 23)),
  -- p751/arith_arm64.s:1392
  ADDS (.reg (A 22)) (.reg (A 25)) (.reg (A 25)),
  -- p751/arith_arm64.s:1393
  ADCS (.reg (A 23)) (.reg (A 26)) (.reg (A 26)),
  -- p751/arith_arm64.s:1394
  ADC (.imm 0) (.reg (A 24)) (.reg (A 24)),
  -- p751/arith_arm64.s:1396
  ADDS (.reg (A 21)) (.reg (A 25)) (.reg (A 11)),
  -- p751/arith_arm64.s:1397
  MOVD (.reg (A 10)) (.mem (A 0) 8),
  MOVD (.reg (A 11)) (.mem (A 0) 9),
  -- p751/arith_arm64.s:1398
  ADCS (.imm 0) (.reg (A 26)) (.reg (A 26)),
  -- p751/arith_arm64.s:1399
  ADC (.imm 0) (.reg (A 24)) (.reg (A 24)),
  -- p751/arith_arm64.s:1402
  MUL (.reg (A 13)) (.reg (A 20)) (.reg (A 22)),
  -- p751/arith_arm64.s:1403
  MOVD (.mem (A 1) 22) (.reg (A 21)),
  -- p751/arith_arm64.s:1404
  UMULH (.reg (A 13)) (.reg (A 20)) (.reg (A 23)),
  -- p751/arith_arm64.s:1405
  ADDS (.reg (A 22)) (.reg (A 26)) (.reg (A 26)),
  -- p751/arith_arm64.s:1406
  ADC (.reg (A 23)) (.reg (A 24)) (.reg (A 24)),
  -- p751/arith_arm64.s:1407
  ADDS (.reg (A 21)) (.reg (A 26)) (.reg (A 12)),
  -- p751/arith_arm64.s:1409
  MOVD (.mem (A 1) 23) (.reg (A 21)),
  -- p751/arith_arm64.s:1410
  ADC (.reg (A 21)) (.reg (A 24)) (.reg (A 13)),
  -- p751/arith_arm64.s:1411
  MOVD (.reg (A 12)) (.mem (A 0) 10),
  MOVD (.reg (A 13)) (.mem (A 0) 11)
  ]

def rdc : Routine := { code := rdcCode, frame := 0, glob := [p1] }

end Model.Arm751
