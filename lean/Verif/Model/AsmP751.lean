import Verif.Model.Asm
import Verif.Model.SidhParams
/-
The routines of dh/sidh/internal/p751/arith_amd64.s, one straight-line program for each kind of CPU: what remains of the text after
macro expansion and after following the jumps `CMPB ·HasBMI2(SB), $1; JE` and `CMPB ·HasADXandBMI2(SB), $1; JE`.
Printed by gen/asmgen.py; each comment gives the line of /repo/dh/sidh/internal the instructions below it come from.
-/
namespace Model.Asm751
open Model Model.Asm

/-- p751/params.go:`P751p1`, an array of 12 words. -/
def p1 : List W64 := Sidh.prime751.p1 ++ List.replicate 0 0

/-- p751/arith_amd64.s:233-360 `addP751` -/
def addCode : List Instr := [
  -- p751/arith_amd64.s:233
  MOVQ (.mem FP 0) (.reg DX),
  -- p751/arith_amd64.s:234
  MOVQ (.mem FP 1) (.reg DI),
  -- p751/arith_amd64.s:235
  MOVQ (.mem FP 2) (.reg SI),
  -- p751/arith_amd64.s:237
  MOVQ (.mem DI 0) (.reg R8),
  -- p751/arith_amd64.s:238
  MOVQ (.mem DI 1) (.reg R9),
  -- p751/arith_amd64.s:239
  MOVQ (.mem DI 2) (.reg R10),
  -- p751/arith_amd64.s:240
  MOVQ (.mem DI 3) (.reg R11),
  -- p751/arith_amd64.s:241
  MOVQ (.mem DI 4) (.reg R12),
  -- p751/arith_amd64.s:242
  MOVQ (.mem DI 5) (.reg R13),
  -- p751/arith_amd64.s:243
  MOVQ (.mem DI 6) (.reg R14),
  -- p751/arith_amd64.s:244
  MOVQ (.mem DI 7) (.reg R15),
  -- p751/arith_amd64.s:245
  MOVQ (.mem DI 8) (.reg CX),
  -- p751/arith_amd64.s:246
  ADDQ (.mem SI 0) (.reg R8),
  -- p751/arith_amd64.s:247
  ADCQ (.mem SI 1) (.reg R9),
  -- p751/arith_amd64.s:248
  ADCQ (.mem SI 2) (.reg R10),
  -- p751/arith_amd64.s:249
  ADCQ (.mem SI 3) (.reg R11),
  -- p751/arith_amd64.s:250
  ADCQ (.mem SI 4) (.reg R12),
  -- p751/arith_amd64.s:251
  ADCQ (.mem SI 5) (.reg R13),
  -- p751/arith_amd64.s:252
  ADCQ (.mem SI 6) (.reg R14),
  -- p751/arith_amd64.s:253
  ADCQ (.mem SI 7) (.reg R15),
  -- p751/arith_amd64.s:254
  ADCQ (.mem SI 8) (.reg CX),
  -- p751/arith_amd64.s:255
  MOVQ (.mem DI 9) (.reg AX),
  -- p751/arith_amd64.s:256
  ADCQ (.mem SI 9) (.reg AX),
  -- p751/arith_amd64.s:257
  MOVQ (.reg AX) (.mem DX 9),
  -- p751/arith_amd64.s:258
  MOVQ (.mem DI 10) (.reg AX),
  -- p751/arith_amd64.s:259
  ADCQ (.mem SI 10) (.reg AX),
  -- p751/arith_amd64.s:260
  MOVQ (.reg AX) (.mem DX 10),
  -- p751/arith_amd64.s:261
  MOVQ (.mem DI 11) (.reg AX),
  -- p751/arith_amd64.s:262
  ADCQ (.mem SI 11) (.reg AX),
  -- p751/arith_amd64.s:263
  MOVQ (.reg AX) (.mem DX 11),
  -- p751/arith_amd64.s:265
  MOVQ (.imm 0xfffffffffffffffe) (.reg AX),
  -- p751/arith_amd64.s:266
  SUBQ (.reg AX) (.reg R8),
  -- p751/arith_amd64.s:267
  MOVQ (.imm 0xffffffffffffffff) (.reg AX),
  -- p751/arith_amd64.s:268
  SBBQ (.reg AX) (.reg R9),
  -- p751/arith_amd64.s:269
  SBBQ (.reg AX) (.reg R10),
  -- p751/arith_amd64.s:270
  SBBQ (.reg AX) (.reg R11),
  -- p751/arith_amd64.s:271
  SBBQ (.reg AX) (.reg R12),
  -- p751/arith_amd64.s:272
  MOVQ (.imm 0xdd5fffffffffffff) (.reg AX),
  -- p751/arith_amd64.s:273
  SBBQ (.reg AX) (.reg R13),
  -- p751/arith_amd64.s:274
  MOVQ (.imm 0xc7d92d0a93f0f151) (.reg AX),
  -- p751/arith_amd64.s:275
  SBBQ (.reg AX) (.reg R14),
  -- p751/arith_amd64.s:276
  MOVQ (.imm 0xb52b363427ef98ed) (.reg AX),
  -- p751/arith_amd64.s:277
  SBBQ (.reg AX) (.reg R15),
  -- p751/arith_amd64.s:278
  MOVQ (.imm 0x109d30cfadd7d0ed) (.reg AX),
  -- p751/arith_amd64.s:279
  SBBQ (.reg AX) (.reg CX),
  -- p751/arith_amd64.s:280
  MOVQ (.reg R8) (.mem DX 0),
  -- p751/arith_amd64.s:281
  MOVQ (.reg R9) (.mem DX 1),
  -- p751/arith_amd64.s:282
  MOVQ (.reg R10) (.mem DX 2),
  -- p751/arith_amd64.s:283
  MOVQ (.reg R11) (.mem DX 3),
  -- p751/arith_amd64.s:284
  MOVQ (.reg R12) (.mem DX 4),
  -- p751/arith_amd64.s:285
  MOVQ (.reg R13) (.mem DX 5),
  -- p751/arith_amd64.s:286
  MOVQ (.reg R14) (.mem DX 6),
  -- p751/arith_amd64.s:287
  MOVQ (.reg R15) (.mem DX 7),
  -- p751/arith_amd64.s:288
  MOVQ (.reg CX) (.mem DX 8),
  -- p751/arith_amd64.s:289
  MOVQ (.mem DX 9) (.reg R8),
  -- p751/arith_amd64.s:290
  MOVQ (.mem DX 10) (.reg R9),
  -- p751/arith_amd64.s:291
  MOVQ (.mem DX 11) (.reg R10),
  -- p751/arith_amd64.s:292
  MOVQ (.imm 0xac56a08b964ae90) (.reg AX),
  -- p751/arith_amd64.s:293
  SBBQ (.reg AX) (.reg R8),
  -- p751/arith_amd64.s:294
  MOVQ (.imm 0x1c25213f2f75b8cd) (.reg AX),
  -- p751/arith_amd64.s:295
  SBBQ (.reg AX) (.reg R9),
  -- p751/arith_amd64.s:296
  MOVQ (.imm 0xdfcbaa83ee38) (.reg AX),
  -- p751/arith_amd64.s:297
  SBBQ (.reg AX) (.reg R10),
  -- p751/arith_amd64.s:298
  MOVQ (.reg R8) (.mem DX 9),
  -- p751/arith_amd64.s:299
  MOVQ (.reg R9) (.mem DX 10),
  -- p751/arith_amd64.s:300
  MOVQ (.reg R10) (.mem DX 11),
  -- p751/arith_amd64.s:301
  MOVQ (.imm 0) (.reg AX),
  -- p751/arith_amd64.s:302
  SBBQ (.imm 0) (.reg AX),
  -- p751/arith_amd64.s:304
  MOVQ (.imm 0xfffffffffffffffe) (.reg SI),
  -- p751/arith_amd64.s:305
  ANDQ (.reg AX) (.reg SI),
  -- p751/arith_amd64.s:306
  MOVQ (.imm 0xffffffffffffffff) (.reg R8),
  -- p751/arith_amd64.s:307
  ANDQ (.reg AX) (.reg R8),
  -- p751/arith_amd64.s:308
  MOVQ (.imm 0xdd5fffffffffffff) (.reg R9),
  -- p751/arith_amd64.s:309
  ANDQ (.reg AX) (.reg R9),
  -- p751/arith_amd64.s:310
  MOVQ (.imm 0xc7d92d0a93f0f151) (.reg R10),
  -- p751/arith_amd64.s:311
  ANDQ (.reg AX) (.reg R10),
  -- p751/arith_amd64.s:312
  MOVQ (.imm 0xb52b363427ef98ed) (.reg R11),
  -- p751/arith_amd64.s:313
  ANDQ (.reg AX) (.reg R11),
  -- p751/arith_amd64.s:314
  MOVQ (.imm 0x109d30cfadd7d0ed) (.reg R12),
  -- p751/arith_amd64.s:315
  ANDQ (.reg AX) (.reg R12),
  -- p751/arith_amd64.s:316
  MOVQ (.imm 0xac56a08b964ae90) (.reg R13),
  -- p751/arith_amd64.s:317
  ANDQ (.reg AX) (.reg R13),
  -- p751/arith_amd64.s:318
  MOVQ (.imm 0x1c25213f2f75b8cd) (.reg R14),
  -- p751/arith_amd64.s:319
  ANDQ (.reg AX) (.reg R14),
  -- p751/arith_amd64.s:320
  MOVQ (.imm 0xdfcbaa83ee38) (.reg R15),
  -- p751/arith_amd64.s:321
  ANDQ (.reg AX) (.reg R15),
  -- p751/arith_amd64.s:323
  MOVQ (.mem DX 0) (.reg AX),
  -- p751/arith_amd64.s:324
  ADDQ (.reg SI) (.reg AX),
  -- p751/arith_amd64.s:325
  MOVQ (.reg AX) (.mem DX 0),
  -- p751/arith_amd64.s:326
  MOVQ (.mem DX 1) (.reg AX),
  -- p751/arith_amd64.s:327
  ADCQ (.reg R8) (.reg AX),
  -- p751/arith_amd64.s:328
  MOVQ (.reg AX) (.mem DX 1),
  -- p751/arith_amd64.s:329
  MOVQ (.mem DX 2) (.reg AX),
  -- p751/arith_amd64.s:330
  ADCQ (.reg R8) (.reg AX),
  -- p751/arith_amd64.s:331
  MOVQ (.reg AX) (.mem DX 2),
  -- p751/arith_amd64.s:332
  MOVQ (.mem DX 3) (.reg AX),
  -- p751/arith_amd64.s:333
  ADCQ (.reg R8) (.reg AX),
  -- p751/arith_amd64.s:334
  MOVQ (.reg AX) (.mem DX 3),
  -- p751/arith_amd64.s:335
  MOVQ (.mem DX 4) (.reg AX),
  -- p751/arith_amd64.s:336
  ADCQ (.reg R8) (.reg AX),
  -- p751/arith_amd64.s:337
  MOVQ (.reg AX) (.mem DX 4),
  -- p751/arith_amd64.s:338
  MOVQ (.mem DX 5) (.reg AX),
  -- p751/arith_amd64.s:339
  ADCQ (.reg R9) (.reg AX),
  -- p751/arith_amd64.s:340
  MOVQ (.reg AX) (.mem DX 5),
  -- p751/arith_amd64.s:341
  MOVQ (.mem DX 6) (.reg AX),
  -- p751/arith_amd64.s:342
  ADCQ (.reg R10) (.reg AX),
  -- p751/arith_amd64.s:343
  MOVQ (.reg AX) (.mem DX 6),
  -- p751/arith_amd64.s:344
  MOVQ (.mem DX 7) (.reg AX),
  -- p751/arith_amd64.s:345
  ADCQ (.reg R11) (.reg AX),
  -- p751/arith_amd64.s:346
  MOVQ (.reg AX) (.mem DX 7),
  -- p751/arith_amd64.s:347
  MOVQ (.mem DX 8) (.reg AX),
  -- p751/arith_amd64.s:348
  ADCQ (.reg R12) (.reg AX),
  -- p751/arith_amd64.s:349
  MOVQ (.reg AX) (.mem DX 8),
  -- p751/arith_amd64.s:350
  MOVQ (.mem DX 9) (.reg AX),
  -- p751/arith_amd64.s:351
  ADCQ (.reg R13) (.reg AX),
  -- p751/arith_amd64.s:352
  MOVQ (.reg AX) (.mem DX 9),
  -- p751/arith_amd64.s:353
  MOVQ (.mem DX 10) (.reg AX),
  -- p751/arith_amd64.s:354
  ADCQ (.reg R14) (.reg AX),
  -- p751/arith_amd64.s:355
  MOVQ (.reg AX) (.mem DX 10),
  -- p751/arith_amd64.s:356
  MOVQ (.mem DX 11) (.reg AX),
  -- p751/arith_amd64.s:357
  ADCQ (.reg R15) (.reg AX),
  -- p751/arith_amd64.s:358
  MOVQ (.reg AX) (.mem DX 11)
  ]

def add : Routine := { code := addCode, frame := 0, glob := [] }

/-- p751/arith_amd64.s:364-463 `subP751` -/
def subCode : List Instr := [
  -- p751/arith_amd64.s:364
  MOVQ (.mem FP 0) (.reg DX),
  -- p751/arith_amd64.s:365
  MOVQ (.mem FP 1) (.reg DI),
  -- p751/arith_amd64.s:366
  MOVQ (.mem FP 2) (.reg SI),
  -- p751/arith_amd64.s:368
  MOVQ (.mem DI 0) (.reg R8),
  -- p751/arith_amd64.s:369
  MOVQ (.mem DI 1) (.reg R9),
  -- p751/arith_amd64.s:370
  MOVQ (.mem DI 2) (.reg R10),
  -- p751/arith_amd64.s:371
  MOVQ (.mem DI 3) (.reg R11),
  -- p751/arith_amd64.s:372
  MOVQ (.mem DI 4) (.reg R12),
  -- p751/arith_amd64.s:373
  MOVQ (.mem DI 5) (.reg R13),
  -- p751/arith_amd64.s:374
  MOVQ (.mem DI 6) (.reg R14),
  -- p751/arith_amd64.s:375
  MOVQ (.mem DI 7) (.reg R15),
  -- p751/arith_amd64.s:376
  MOVQ (.mem DI 8) (.reg CX),
  -- p751/arith_amd64.s:377
  SUBQ (.mem SI 0) (.reg R8),
  -- p751/arith_amd64.s:378
  SBBQ (.mem SI 1) (.reg R9),
  -- p751/arith_amd64.s:379
  SBBQ (.mem SI 2) (.reg R10),
  -- p751/arith_amd64.s:380
  SBBQ (.mem SI 3) (.reg R11),
  -- p751/arith_amd64.s:381
  SBBQ (.mem SI 4) (.reg R12),
  -- p751/arith_amd64.s:382
  SBBQ (.mem SI 5) (.reg R13),
  -- p751/arith_amd64.s:383
  SBBQ (.mem SI 6) (.reg R14),
  -- p751/arith_amd64.s:384
  SBBQ (.mem SI 7) (.reg R15),
  -- p751/arith_amd64.s:385
  SBBQ (.mem SI 8) (.reg CX),
  -- p751/arith_amd64.s:386
  MOVQ (.reg R8) (.mem DX 0),
  -- p751/arith_amd64.s:387
  MOVQ (.reg R9) (.mem DX 1),
  -- p751/arith_amd64.s:388
  MOVQ (.reg R10) (.mem DX 2),
  -- p751/arith_amd64.s:389
  MOVQ (.reg R11) (.mem DX 3),
  -- p751/arith_amd64.s:390
  MOVQ (.reg R12) (.mem DX 4),
  -- p751/arith_amd64.s:391
  MOVQ (.reg R13) (.mem DX 5),
  -- p751/arith_amd64.s:392
  MOVQ (.reg R14) (.mem DX 6),
  -- p751/arith_amd64.s:393
  MOVQ (.reg R15) (.mem DX 7),
  -- p751/arith_amd64.s:394
  MOVQ (.reg CX) (.mem DX 8),
  -- p751/arith_amd64.s:395
  MOVQ (.mem DI 9) (.reg AX),
  -- p751/arith_amd64.s:396
  SBBQ (.mem SI 9) (.reg AX),
  -- p751/arith_amd64.s:397
  MOVQ (.reg AX) (.mem DX 9),
  -- p751/arith_amd64.s:398
  MOVQ (.mem DI 10) (.reg AX),
  -- p751/arith_amd64.s:399
  SBBQ (.mem SI 10) (.reg AX),
  -- p751/arith_amd64.s:400
  MOVQ (.reg AX) (.mem DX 10),
  -- p751/arith_amd64.s:401
  MOVQ (.mem DI 11) (.reg AX),
  -- p751/arith_amd64.s:402
  SBBQ (.mem SI 11) (.reg AX),
  -- p751/arith_amd64.s:403
  MOVQ (.reg AX) (.mem DX 11),
  -- p751/arith_amd64.s:404
  MOVQ (.imm 0) (.reg AX),
  -- p751/arith_amd64.s:405
  SBBQ (.imm 0) (.reg AX),
  -- p751/arith_amd64.s:407
  MOVQ (.imm 0xfffffffffffffffe) (.reg SI),
  -- p751/arith_amd64.s:408
  ANDQ (.reg AX) (.reg SI),
  -- p751/arith_amd64.s:409
  MOVQ (.imm 0xffffffffffffffff) (.reg R8),
  -- p751/arith_amd64.s:410
  ANDQ (.reg AX) (.reg R8),
  -- p751/arith_amd64.s:411
  MOVQ (.imm 0xdd5fffffffffffff) (.reg R9),
  -- p751/arith_amd64.s:412
  ANDQ (.reg AX) (.reg R9),
  -- p751/arith_amd64.s:413
  MOVQ (.imm 0xc7d92d0a93f0f151) (.reg R10),
  -- p751/arith_amd64.s:414
  ANDQ (.reg AX) (.reg R10),
  -- p751/arith_amd64.s:415
  MOVQ (.imm 0xb52b363427ef98ed) (.reg R11),
  -- p751/arith_amd64.s:416
  ANDQ (.reg AX) (.reg R11),
  -- p751/arith_amd64.s:417
  MOVQ (.imm 0x109d30cfadd7d0ed) (.reg R12),
  -- p751/arith_amd64.s:418
  ANDQ (.reg AX) (.reg R12),
  -- p751/arith_amd64.s:419
  MOVQ (.imm 0xac56a08b964ae90) (.reg R13),
  -- p751/arith_amd64.s:420
  ANDQ (.reg AX) (.reg R13),
  -- p751/arith_amd64.s:421
  MOVQ (.imm 0x1c25213f2f75b8cd) (.reg R14),
  -- p751/arith_amd64.s:422
  ANDQ (.reg AX) (.reg R14),
  -- p751/arith_amd64.s:423
  MOVQ (.imm 0xdfcbaa83ee38) (.reg R15),
  -- p751/arith_amd64.s:424
  ANDQ (.reg AX) (.reg R15),
  -- p751/arith_amd64.s:426
  MOVQ (.mem DX 0) (.reg AX),
  -- p751/arith_amd64.s:427
  ADDQ (.reg SI) (.reg AX),
  -- p751/arith_amd64.s:428
  MOVQ (.reg AX) (.mem DX 0),
  -- p751/arith_amd64.s:429
  MOVQ (.mem DX 1) (.reg AX),
  -- p751/arith_amd64.s:430
  ADCQ (.reg R8) (.reg AX),
  -- p751/arith_amd64.s:431
  MOVQ (.reg AX) (.mem DX 1),
  -- p751/arith_amd64.s:432
  MOVQ (.mem DX 2) (.reg AX),
  -- p751/arith_amd64.s:433
  ADCQ (.reg R8) (.reg AX),
  -- p751/arith_amd64.s:434
  MOVQ (.reg AX) (.mem DX 2),
  -- p751/arith_amd64.s:435
  MOVQ (.mem DX 3) (.reg AX),
  -- p751/arith_amd64.s:436
  ADCQ (.reg R8) (.reg AX),
  -- p751/arith_amd64.s:437
  MOVQ (.reg AX) (.mem DX 3),
  -- p751/arith_amd64.s:438
  MOVQ (.mem DX 4) (.reg AX),
  -- p751/arith_amd64.s:439
  ADCQ (.reg R8) (.reg AX),
  -- p751/arith_amd64.s:440
  MOVQ (.reg AX) (.mem DX 4),
  -- p751/arith_amd64.s:441
  MOVQ (.mem DX 5) (.reg AX),
  -- p751/arith_amd64.s:442
  ADCQ (.reg R9) (.reg AX),
  -- p751/arith_amd64.s:443
  MOVQ (.reg AX) (.mem DX 5),
  -- p751/arith_amd64.s:444
  MOVQ (.mem DX 6) (.reg AX),
  -- p751/arith_amd64.s:445
  ADCQ (.reg R10) (.reg AX),
  -- p751/arith_amd64.s:446
  MOVQ (.reg AX) (.mem DX 6),
  -- p751/arith_amd64.s:447
  MOVQ (.mem DX 7) (.reg AX),
  -- p751/arith_amd64.s:448
  ADCQ (.reg R11) (.reg AX),
  -- p751/arith_amd64.s:449
  MOVQ (.reg AX) (.mem DX 7),
  -- p751/arith_amd64.s:450
  MOVQ (.mem DX 8) (.reg AX),
  -- p751/arith_amd64.s:451
  ADCQ (.reg R12) (.reg AX),
  -- p751/arith_amd64.s:452
  MOVQ (.reg AX) (.mem DX 8),
  -- p751/arith_amd64.s:453
  MOVQ (.mem DX 9) (.reg AX),
  -- p751/arith_amd64.s:454
  ADCQ (.reg R13) (.reg AX),
  -- p751/arith_amd64.s:455
  MOVQ (.reg AX) (.mem DX 9),
  -- p751/arith_amd64.s:456
  MOVQ (.mem DX 10) (.reg AX),
  -- p751/arith_amd64.s:457
  ADCQ (.reg R14) (.reg AX),
  -- p751/arith_amd64.s:458
  MOVQ (.reg AX) (.mem DX 10),
  -- p751/arith_amd64.s:459
  MOVQ (.mem DX 11) (.reg AX),
  -- p751/arith_amd64.s:460
  ADCQ (.reg R15) (.reg AX),
  -- p751/arith_amd64.s:461
  MOVQ (.reg AX) (.mem DX 11)
  ]

def sub : Routine := { code := subCode, frame := 0, glob := [] }

/-- p751/arith_amd64.s:2366-2448 `adlP751` -/
def adlCode : List Instr := [
  -- p751/arith_amd64.s:2366
  MOVQ (.mem FP 0) (.reg DX),
  -- p751/arith_amd64.s:2367
  MOVQ (.mem FP 1) (.reg DI),
  -- p751/arith_amd64.s:2368
  MOVQ (.mem FP 2) (.reg SI),
  -- p751/arith_amd64.s:2370
  MOVQ (.mem DI 0) (.reg R8),
  -- p751/arith_amd64.s:2371
  MOVQ (.mem DI 1) (.reg R9),
  -- p751/arith_amd64.s:2372
  MOVQ (.mem DI 2) (.reg R10),
  -- p751/arith_amd64.s:2373
  MOVQ (.mem DI 3) (.reg R11),
  -- p751/arith_amd64.s:2374
  MOVQ (.mem DI 4) (.reg R12),
  -- p751/arith_amd64.s:2375
  MOVQ (.mem DI 5) (.reg R13),
  -- p751/arith_amd64.s:2376
  MOVQ (.mem DI 6) (.reg R14),
  -- p751/arith_amd64.s:2377
  MOVQ (.mem DI 7) (.reg R15),
  -- p751/arith_amd64.s:2378
  MOVQ (.mem DI 8) (.reg AX),
  -- p751/arith_amd64.s:2379
  MOVQ (.mem DI 9) (.reg BX),
  -- p751/arith_amd64.s:2380
  MOVQ (.mem DI 10) (.reg CX),
  -- p751/arith_amd64.s:2382
  ADDQ (.mem SI 0) (.reg R8),
  -- p751/arith_amd64.s:2383
  ADCQ (.mem SI 1) (.reg R9),
  -- p751/arith_amd64.s:2384
  ADCQ (.mem SI 2) (.reg R10),
  -- p751/arith_amd64.s:2385
  ADCQ (.mem SI 3) (.reg R11),
  -- p751/arith_amd64.s:2386
  ADCQ (.mem SI 4) (.reg R12),
  -- p751/arith_amd64.s:2387
  ADCQ (.mem SI 5) (.reg R13),
  -- p751/arith_amd64.s:2388
  ADCQ (.mem SI 6) (.reg R14),
  -- p751/arith_amd64.s:2389
  ADCQ (.mem SI 7) (.reg R15),
  -- p751/arith_amd64.s:2390
  ADCQ (.mem SI 8) (.reg AX),
  -- p751/arith_amd64.s:2391
  ADCQ (.mem SI 9) (.reg BX),
  -- p751/arith_amd64.s:2392
  ADCQ (.mem SI 10) (.reg CX),
  -- p751/arith_amd64.s:2394
  MOVQ (.reg R8) (.mem DX 0),
  -- p751/arith_amd64.s:2395
  MOVQ (.reg R9) (.mem DX 1),
  -- p751/arith_amd64.s:2396
  MOVQ (.reg R10) (.mem DX 2),
  -- p751/arith_amd64.s:2397
  MOVQ (.reg R11) (.mem DX 3),
  -- p751/arith_amd64.s:2398
  MOVQ (.reg R12) (.mem DX 4),
  -- p751/arith_amd64.s:2399
  MOVQ (.reg R13) (.mem DX 5),
  -- p751/arith_amd64.s:2400
  MOVQ (.reg R14) (.mem DX 6),
  -- p751/arith_amd64.s:2401
  MOVQ (.reg R15) (.mem DX 7),
  -- p751/arith_amd64.s:2402
  MOVQ (.reg AX) (.mem DX 8),
  -- p751/arith_amd64.s:2403
  MOVQ (.reg BX) (.mem DX 9),
  -- p751/arith_amd64.s:2404
  MOVQ (.reg CX) (.mem DX 10),
  -- p751/arith_amd64.s:2405
  MOVQ (.mem DI 11) (.reg AX),
  -- p751/arith_amd64.s:2406
  ADCQ (.mem SI 11) (.reg AX),
  -- p751/arith_amd64.s:2407
  MOVQ (.reg AX) (.mem DX 11),
  -- p751/arith_amd64.s:2409
  MOVQ (.mem DI 12) (.reg R8),
  -- p751/arith_amd64.s:2410
  MOVQ (.mem DI 13) (.reg R9),
  -- p751/arith_amd64.s:2411
  MOVQ (.mem DI 14) (.reg R10),
  -- p751/arith_amd64.s:2412
  MOVQ (.mem DI 15) (.reg R11),
  -- p751/arith_amd64.s:2413
  MOVQ (.mem DI 16) (.reg R12),
  -- p751/arith_amd64.s:2414
  MOVQ (.mem DI 17) (.reg R13),
  -- p751/arith_amd64.s:2415
  MOVQ (.mem DI 18) (.reg R14),
  -- p751/arith_amd64.s:2416
  MOVQ (.mem DI 19) (.reg R15),
  -- p751/arith_amd64.s:2417
  MOVQ (.mem DI 20) (.reg AX),
  -- p751/arith_amd64.s:2418
  MOVQ (.mem DI 21) (.reg BX),
  -- p751/arith_amd64.s:2419
  MOVQ (.mem DI 22) (.reg CX),
  -- p751/arith_amd64.s:2420
  MOVQ (.mem DI 23) (.reg DI),
  -- p751/arith_amd64.s:2422
  ADCQ (.mem SI 12) (.reg R8),
  -- p751/arith_amd64.s:2423
  ADCQ (.mem SI 13) (.reg R9),
  -- p751/arith_amd64.s:2424
  ADCQ (.mem SI 14) (.reg R10),
  -- p751/arith_amd64.s:2425
  ADCQ (.mem SI 15) (.reg R11),
  -- p751/arith_amd64.s:2426
  ADCQ (.mem SI 16) (.reg R12),
  -- p751/arith_amd64.s:2427
  ADCQ (.mem SI 17) (.reg R13),
  -- p751/arith_amd64.s:2428
  ADCQ (.mem SI 18) (.reg R14),
  -- p751/arith_amd64.s:2429
  ADCQ (.mem SI 19) (.reg R15),
  -- p751/arith_amd64.s:2430
  ADCQ (.mem SI 20) (.reg AX),
  -- p751/arith_amd64.s:2431
  ADCQ (.mem SI 21) (.reg BX),
  -- p751/arith_amd64.s:2432
  ADCQ (.mem SI 22) (.reg CX),
  -- p751/arith_amd64.s:2433
  ADCQ (.mem SI 23) (.reg DI),
  -- p751/arith_amd64.s:2435
  MOVQ (.reg R8) (.mem DX 12),
  -- p751/arith_amd64.s:2436
  MOVQ (.reg R9) (.mem DX 13),
  -- p751/arith_amd64.s:2437
  MOVQ (.reg R10) (.mem DX 14),
  -- p751/arith_amd64.s:2438
  MOVQ (.reg R11) (.mem DX 15),
  -- p751/arith_amd64.s:2439
  MOVQ (.reg R12) (.mem DX 16),
  -- p751/arith_amd64.s:2440
  MOVQ (.reg R13) (.mem DX 17),
  -- p751/arith_amd64.s:2441
  MOVQ (.reg R14) (.mem DX 18),
  -- p751/arith_amd64.s:2442
  MOVQ (.reg R15) (.mem DX 19),
  -- p751/arith_amd64.s:2443
  MOVQ (.reg AX) (.mem DX 20),
  -- p751/arith_amd64.s:2444
  MOVQ (.reg BX) (.mem DX 21),
  -- p751/arith_amd64.s:2445
  MOVQ (.reg CX) (.mem DX 22),
  -- p751/arith_amd64.s:2446
  MOVQ (.reg DI) (.mem DX 23)
  ]

def adl : Routine := { code := adlCode, frame := 0, glob := [] }

/-- p751/arith_amd64.s:2453-2572 `sulP751` -/
def sulCode : List Instr := [
  -- p751/arith_amd64.s:2453
  MOVQ (.mem FP 0) (.reg DX),
  -- p751/arith_amd64.s:2454
  MOVQ (.mem FP 1) (.reg DI),
  -- p751/arith_amd64.s:2455
  MOVQ (.mem FP 2) (.reg SI),
  -- p751/arith_amd64.s:2457
  MOVQ (.mem DI 0) (.reg R8),
  -- p751/arith_amd64.s:2458
  MOVQ (.mem DI 1) (.reg R9),
  -- p751/arith_amd64.s:2459
  MOVQ (.mem DI 2) (.reg R10),
  -- p751/arith_amd64.s:2460
  MOVQ (.mem DI 3) (.reg R11),
  -- p751/arith_amd64.s:2461
  MOVQ (.mem DI 4) (.reg R12),
  -- p751/arith_amd64.s:2462
  MOVQ (.mem DI 5) (.reg R13),
  -- p751/arith_amd64.s:2463
  MOVQ (.mem DI 6) (.reg R14),
  -- p751/arith_amd64.s:2464
  MOVQ (.mem DI 7) (.reg R15),
  -- p751/arith_amd64.s:2465
  MOVQ (.mem DI 8) (.reg AX),
  -- p751/arith_amd64.s:2466
  MOVQ (.mem DI 9) (.reg BX),
  -- p751/arith_amd64.s:2467
  MOVQ (.mem DI 10) (.reg CX),
  -- p751/arith_amd64.s:2469
  SUBQ (.mem SI 0) (.reg R8),
  -- p751/arith_amd64.s:2470
  SBBQ (.mem SI 1) (.reg R9),
  -- p751/arith_amd64.s:2471
  SBBQ (.mem SI 2) (.reg R10),
  -- p751/arith_amd64.s:2472
  SBBQ (.mem SI 3) (.reg R11),
  -- p751/arith_amd64.s:2473
  SBBQ (.mem SI 4) (.reg R12),
  -- p751/arith_amd64.s:2474
  SBBQ (.mem SI 5) (.reg R13),
  -- p751/arith_amd64.s:2475
  SBBQ (.mem SI 6) (.reg R14),
  -- p751/arith_amd64.s:2476
  SBBQ (.mem SI 7) (.reg R15),
  -- p751/arith_amd64.s:2477
  SBBQ (.mem SI 8) (.reg AX),
  -- p751/arith_amd64.s:2478
  SBBQ (.mem SI 9) (.reg BX),
  -- p751/arith_amd64.s:2479
  SBBQ (.mem SI 10) (.reg CX),
  -- p751/arith_amd64.s:2481
  MOVQ (.reg R8) (.mem DX 0),
  -- p751/arith_amd64.s:2482
  MOVQ (.reg R9) (.mem DX 1),
  -- p751/arith_amd64.s:2483
  MOVQ (.reg R10) (.mem DX 2),
  -- p751/arith_amd64.s:2484
  MOVQ (.reg R11) (.mem DX 3),
  -- p751/arith_amd64.s:2485
  MOVQ (.reg R12) (.mem DX 4),
  -- p751/arith_amd64.s:2486
  MOVQ (.reg R13) (.mem DX 5),
  -- p751/arith_amd64.s:2487
  MOVQ (.reg R14) (.mem DX 6),
  -- p751/arith_amd64.s:2488
  MOVQ (.reg R15) (.mem DX 7),
  -- p751/arith_amd64.s:2489
  MOVQ (.reg AX) (.mem DX 8),
  -- p751/arith_amd64.s:2490
  MOVQ (.reg BX) (.mem DX 9),
  -- p751/arith_amd64.s:2491
  MOVQ (.reg CX) (.mem DX 10),
  -- p751/arith_amd64.s:2492
  MOVQ (.mem DI 11) (.reg AX),
  -- p751/arith_amd64.s:2493
  SBBQ (.mem SI 11) (.reg AX),
  -- p751/arith_amd64.s:2494
  MOVQ (.reg AX) (.mem DX 11),
  -- p751/arith_amd64.s:2496
  MOVQ (.mem DI 12) (.reg R8),
  -- p751/arith_amd64.s:2497
  MOVQ (.mem DI 13) (.reg R9),
  -- p751/arith_amd64.s:2498
  MOVQ (.mem DI 14) (.reg R10),
  -- p751/arith_amd64.s:2499
  MOVQ (.mem DI 15) (.reg R11),
  -- p751/arith_amd64.s:2500
  MOVQ (.mem DI 16) (.reg R12),
  -- p751/arith_amd64.s:2501
  MOVQ (.mem DI 17) (.reg R13),
  -- p751/arith_amd64.s:2502
  MOVQ (.mem DI 18) (.reg R14),
  -- p751/arith_amd64.s:2503
  MOVQ (.mem DI 19) (.reg R15),
  -- p751/arith_amd64.s:2504
  MOVQ (.mem DI 20) (.reg AX),
  -- p751/arith_amd64.s:2505
  MOVQ (.mem DI 21) (.reg BX),
  -- p751/arith_amd64.s:2506
  MOVQ (.mem DI 22) (.reg CX),
  -- p751/arith_amd64.s:2507
  MOVQ (.mem DI 23) (.reg DI),
  -- p751/arith_amd64.s:2509
  SBBQ (.mem SI 12) (.reg R8),
  -- p751/arith_amd64.s:2510
  SBBQ (.mem SI 13) (.reg R9),
  -- p751/arith_amd64.s:2511
  SBBQ (.mem SI 14) (.reg R10),
  -- p751/arith_amd64.s:2512
  SBBQ (.mem SI 15) (.reg R11),
  -- p751/arith_amd64.s:2513
  SBBQ (.mem SI 16) (.reg R12),
  -- p751/arith_amd64.s:2514
  SBBQ (.mem SI 17) (.reg R13),
  -- p751/arith_amd64.s:2515
  SBBQ (.mem SI 18) (.reg R14),
  -- p751/arith_amd64.s:2516
  SBBQ (.mem SI 19) (.reg R15),
  -- p751/arith_amd64.s:2517
  SBBQ (.mem SI 20) (.reg AX),
  -- p751/arith_amd64.s:2518
  SBBQ (.mem SI 21) (.reg BX),
  -- p751/arith_amd64.s:2519
  SBBQ (.mem SI 22) (.reg CX),
  -- p751/arith_amd64.s:2520
  SBBQ (.mem SI 23) (.reg DI),
  -- p751/arith_amd64.s:2522
  MOVQ (.reg R8) (.mem DX 12),
  -- p751/arith_amd64.s:2523
  MOVQ (.reg R9) (.mem DX 13),
  -- p751/arith_amd64.s:2524
  MOVQ (.reg R10) (.mem DX 14),
  -- p751/arith_amd64.s:2525
  MOVQ (.reg R11) (.mem DX 15),
  -- p751/arith_amd64.s:2526
  MOVQ (.reg R12) (.mem DX 16),
  -- p751/arith_amd64.s:2527
  MOVQ (.reg R13) (.mem DX 17),
  -- p751/arith_amd64.s:2528
  MOVQ (.reg R14) (.mem DX 18),
  -- p751/arith_amd64.s:2529
  MOVQ (.reg R15) (.mem DX 19),
  -- p751/arith_amd64.s:2530
  MOVQ (.reg AX) (.mem DX 20),
  -- p751/arith_amd64.s:2531
  MOVQ (.reg BX) (.mem DX 21),
  -- p751/arith_amd64.s:2532
  MOVQ (.reg CX) (.mem DX 22),
  -- p751/arith_amd64.s:2533
  MOVQ (.reg DI) (.mem DX 23),
  -- p751/arith_amd64.s:2536
  MOVQ (.imm 0) (.reg AX),
  -- p751/arith_amd64.s:2537
  SBBQ (.imm 0) (.reg AX),
  -- p751/arith_amd64.s:2540
  MOVQ (.imm 0xffffffffffffffff) (.reg R8),
  -- p751/arith_amd64.s:2542
  MOVQ (.imm 0xeeafffffffffffff) (.reg R9),
  -- p751/arith_amd64.s:2543
  MOVQ (.imm 0xe3ec968549f878a8) (.reg R10),
  -- p751/arith_amd64.s:2544
  MOVQ (.imm 0xda959b1a13f7cc76) (.reg R11),
  -- p751/arith_amd64.s:2545
  MOVQ (.imm 0x84e9867d6ebe876) (.reg R12),
  -- p751/arith_amd64.s:2546
  MOVQ (.imm 0x8562b5045cb25748) (.reg R13),
  -- p751/arith_amd64.s:2547
  MOVQ (.imm 0xe12909f97badc66) (.reg R14),
  -- p751/arith_amd64.s:2548
  MOVQ (.imm 0x6fe5d541f71c) (.reg R15),
  -- p751/arith_amd64.s:2550
  ANDQ (.reg AX) (.reg R8),
  -- p751/arith_amd64.s:2551
  ANDQ (.reg AX) (.reg R9),
  -- p751/arith_amd64.s:2552
  ANDQ (.reg AX) (.reg R10),
  -- p751/arith_amd64.s:2553
  ANDQ (.reg AX) (.reg R11),
  -- p751/arith_amd64.s:2554
  ANDQ (.reg AX) (.reg R12),
  -- p751/arith_amd64.s:2555
  ANDQ (.reg AX) (.reg R13),
  -- p751/arith_amd64.s:2556
  ANDQ (.reg AX) (.reg R14),
  -- p751/arith_amd64.s:2557
  ANDQ (.reg AX) (.reg R15),
  -- p751/arith_amd64.s:2559
  ADDQ (.reg R8) (.mem DX 12),
  -- p751/arith_amd64.s:2560
  ADCQ (.reg R8) (.mem DX 13),
  -- p751/arith_amd64.s:2561
  ADCQ (.reg R8) (.mem DX 14),
  -- p751/arith_amd64.s:2562
  ADCQ (.reg R8) (.mem DX 15),
  -- p751/arith_amd64.s:2563
  ADCQ (.reg R8) (.mem DX 16),
  -- p751/arith_amd64.s:2564
  ADCQ (.reg R9) (.mem DX 17),
  -- p751/arith_amd64.s:2565
  ADCQ (.reg R10) (.mem DX 18),
  -- p751/arith_amd64.s:2566
  ADCQ (.reg R11) (.mem DX 19),
  -- p751/arith_amd64.s:2567
  ADCQ (.reg R12) (.mem DX 20),
  -- p751/arith_amd64.s:2568
  ADCQ (.reg R13) (.mem DX 21),
  -- p751/arith_amd64.s:2569
  ADCQ (.reg R14) (.mem DX 22),
  -- p751/arith_amd64.s:2570
  ADCQ (.reg R15) (.mem DX 23)
  ]

def sul : Routine := { code := sulCode, frame := 0, glob := [] }

/-- p751/arith_amd64.s:43-99 `modP751` -/
def modCode : List Instr := [
  -- p751/arith_amd64.s:43
  MOVQ (.mem FP 0) (.reg DI),
  -- p751/arith_amd64.s:46
  XORQ (.reg AX) (.reg AX),
  -- p751/arith_amd64.s:49
  MOVQ (.imm 0xffffffffffffffff) (.reg R8),
  -- p751/arith_amd64.s:51
  MOVQ (.imm 0xeeafffffffffffff) (.reg R9),
  -- p751/arith_amd64.s:52
  MOVQ (.imm 0xe3ec968549f878a8) (.reg R10),
  -- p751/arith_amd64.s:53
  MOVQ (.imm 0xda959b1a13f7cc76) (.reg R11),
  -- p751/arith_amd64.s:54
  MOVQ (.imm 0x84e9867d6ebe876) (.reg R12),
  -- p751/arith_amd64.s:55
  MOVQ (.imm 0x8562b5045cb25748) (.reg R13),
  -- p751/arith_amd64.s:56
  MOVQ (.imm 0xe12909f97badc66) (.reg R14),
  -- p751/arith_amd64.s:57
  MOVQ (.imm 0x6fe5d541f71c) (.reg R15),
  -- p751/arith_amd64.s:60
  SUBQ (.reg R8) (.mem DI 0),
  -- p751/arith_amd64.s:61
  SBBQ (.reg R8) (.mem DI 1),
  -- p751/arith_amd64.s:62
  SBBQ (.reg R8) (.mem DI 2),
  -- p751/arith_amd64.s:63
  SBBQ (.reg R8) (.mem DI 3),
  -- p751/arith_amd64.s:64
  SBBQ (.reg R8) (.mem DI 4),
  -- p751/arith_amd64.s:65
  SBBQ (.reg R9) (.mem DI 5),
  -- p751/arith_amd64.s:66
  SBBQ (.reg R10) (.mem DI 6),
  -- p751/arith_amd64.s:67
  SBBQ (.reg R11) (.mem DI 7),
  -- p751/arith_amd64.s:68
  SBBQ (.reg R12) (.mem DI 8),
  -- p751/arith_amd64.s:69
  SBBQ (.reg R13) (.mem DI 9),
  -- p751/arith_amd64.s:70
  SBBQ (.reg R14) (.mem DI 10),
  -- p751/arith_amd64.s:71
  SBBQ (.reg R15) (.mem DI 11),
  -- p751/arith_amd64.s:74
  SBBQ (.imm 0) (.reg AX),
  -- p751/arith_amd64.s:77
  ANDQ (.reg AX) (.reg R8),
  -- p751/arith_amd64.s:78
  ANDQ (.reg AX) (.reg R9),
  -- p751/arith_amd64.s:79
  ANDQ (.reg AX) (.reg R10),
  -- p751/arith_amd64.s:80
  ANDQ (.reg AX) (.reg R11),
  -- p751/arith_amd64.s:81
  ANDQ (.reg AX) (.reg R12),
  -- p751/arith_amd64.s:82
  ANDQ (.reg AX) (.reg R13),
  -- p751/arith_amd64.s:83
  ANDQ (.reg AX) (.reg R14),
  -- p751/arith_amd64.s:84
  ANDQ (.reg AX) (.reg R15),
  -- p751/arith_amd64.s:86
  ADDQ (.reg R8) (.mem DI 0),
  -- p751/arith_amd64.s:87
  ADCQ (.reg R8) (.mem DI 1),
  -- p751/arith_amd64.s:88
  ADCQ (.reg R8) (.mem DI 2),
  -- p751/arith_amd64.s:89
  ADCQ (.reg R8) (.mem DI 3),
  -- p751/arith_amd64.s:90
  ADCQ (.reg R8) (.mem DI 4),
  -- p751/arith_amd64.s:91
  ADCQ (.reg R9) (.mem DI 5),
  -- p751/arith_amd64.s:92
  ADCQ (.reg R10) (.mem DI 6),
  -- p751/arith_amd64.s:93
  ADCQ (.reg R11) (.mem DI 7),
  -- p751/arith_amd64.s:94
  ADCQ (.reg R12) (.mem DI 8),
  -- p751/arith_amd64.s:95
  ADCQ (.reg R13) (.mem DI 9),
  -- p751/arith_amd64.s:96
  ADCQ (.reg R14) (.mem DI 10),
  -- p751/arith_amd64.s:97
  ADCQ (.reg R15) (.mem DI 11)
  ]

def mod : Routine := { code := modCode, frame := 0, glob := [] }

/-- p751/arith_amd64.s:471-1394 `mulP751` -/
def mulCode : List Instr := [
  -- p751/arith_amd64.s:471
  MOVQ (.mem FP 0) (.reg CX),
  -- p751/arith_amd64.s:472
  MOVQ (.mem FP 1) (.reg DI),
  -- p751/arith_amd64.s:473
  MOVQ (.mem FP 2) (.reg SI),
  -- p751/arith_amd64.s:475
  XORQ (.reg AX) (.reg AX),
  -- p751/arith_amd64.s:476
  MOVQ (.mem DI 6) (.reg R8),
  -- p751/arith_amd64.s:477
  MOVQ (.mem DI 7) (.reg R9),
  -- p751/arith_amd64.s:478
  MOVQ (.mem DI 8) (.reg R10),
  -- p751/arith_amd64.s:479
  MOVQ (.mem DI 9) (.reg R11),
  -- p751/arith_amd64.s:480
  MOVQ (.mem DI 10) (.reg R12),
  -- p751/arith_amd64.s:481
  MOVQ (.mem DI 11) (.reg R13),
  -- p751/arith_amd64.s:482
  ADDQ (.mem DI 0) (.reg R8),
  -- p751/arith_amd64.s:483
  ADCQ (.mem DI 1) (.reg R9),
  -- p751/arith_amd64.s:484
  ADCQ (.mem DI 2) (.reg R10),
  -- p751/arith_amd64.s:485
  ADCQ (.mem DI 3) (.reg R11),
  -- p751/arith_amd64.s:486
  ADCQ (.mem DI 4) (.reg R12),
  -- p751/arith_amd64.s:487
  ADCQ (.mem DI 5) (.reg R13),
  -- p751/arith_amd64.s:488
  MOVQ (.reg R8) (.mem CX 0),
  -- p751/arith_amd64.s:489
  MOVQ (.reg R9) (.mem CX 1),
  -- p751/arith_amd64.s:490
  MOVQ (.reg R10) (.mem CX 2),
  -- p751/arith_amd64.s:491
  MOVQ (.reg R11) (.mem CX 3),
  -- p751/arith_amd64.s:492
  MOVQ (.reg R12) (.mem CX 4),
  -- p751/arith_amd64.s:493
  MOVQ (.reg R13) (.mem CX 5),
  -- p751/arith_amd64.s:494
  SBBQ (.imm 0) (.reg AX),
  -- p751/arith_amd64.s:496
  XORQ (.reg DX) (.reg DX),
  -- p751/arith_amd64.s:497
  MOVQ (.mem SI 6) (.reg R8),
  -- p751/arith_amd64.s:498
  MOVQ (.mem SI 7) (.reg R9),
  -- p751/arith_amd64.s:499
  MOVQ (.mem SI 8) (.reg R10),
  -- p751/arith_amd64.s:500
  MOVQ (.mem SI 9) (.reg R11),
  -- p751/arith_amd64.s:501
  MOVQ (.mem SI 10) (.reg R12),
  -- p751/arith_amd64.s:502
  MOVQ (.mem SI 11) (.reg R13),
  -- p751/arith_amd64.s:503
  ADDQ (.mem SI 0) (.reg R8),
  -- p751/arith_amd64.s:504
  ADCQ (.mem SI 1) (.reg R9),
  -- p751/arith_amd64.s:505
  ADCQ (.mem SI 2) (.reg R10),
  -- p751/arith_amd64.s:506
  ADCQ (.mem SI 3) (.reg R11),
  -- p751/arith_amd64.s:507
  ADCQ (.mem SI 4) (.reg R12),
  -- p751/arith_amd64.s:508
  ADCQ (.mem SI 5) (.reg R13),
  -- p751/arith_amd64.s:509
  MOVQ (.reg R8) (.mem CX 6),
  -- p751/arith_amd64.s:510
  MOVQ (.reg R9) (.mem CX 7),
  -- p751/arith_amd64.s:511
  MOVQ (.reg R10) (.mem CX 8),
  -- p751/arith_amd64.s:512
  MOVQ (.reg R11) (.mem CX 9),
  -- p751/arith_amd64.s:513
  MOVQ (.reg R12) (.mem CX 10),
  -- p751/arith_amd64.s:514
  MOVQ (.reg R13) (.mem CX 11),
  -- p751/arith_amd64.s:515
  SBBQ (.imm 0) (.reg DX),
  -- p751/arith_amd64.s:516
  MOVQ (.reg AX) (.mem SP 10),
  -- p751/arith_amd64.s:517
  MOVQ (.reg DX) (.mem SP 11),
  -- p751/arith_amd64.s:521
  MOVQ (.mem CX 0) (.reg R11),
  -- p751/arith_amd64.s:522
  MOVQ (.reg R8) (.reg AX),
  -- p751/arith_amd64.s:523
  MULQ (.reg R11),
  -- p751/arith_amd64.s:524
  MOVQ (.reg AX) (.mem SP 0),
  -- p751/arith_amd64.s:525
  MOVQ (.reg DX) (.reg R14),
  -- p751/arith_amd64.s:527
  XORQ (.reg R15) (.reg R15),
  -- p751/arith_amd64.s:528
  MOVQ (.reg R9) (.reg AX),
  -- p751/arith_amd64.s:529
  MULQ (.reg R11),
  -- p751/arith_amd64.s:530
  XORQ (.reg R9) (.reg R9),
  -- p751/arith_amd64.s:531
  ADDQ (.reg AX) (.reg R14),
  -- p751/arith_amd64.s:532
  ADCQ (.reg DX) (.reg R9),
  -- p751/arith_amd64.s:534
  MOVQ (.mem CX 1) (.reg R12),
  -- p751/arith_amd64.s:535
  MOVQ (.reg R8) (.reg AX),
  -- p751/arith_amd64.s:536
  MULQ (.reg R12),
  -- p751/arith_amd64.s:537
  ADDQ (.reg AX) (.reg R14),
  -- p751/arith_amd64.s:538
  MOVQ (.reg R14) (.mem SP 1),
  -- p751/arith_amd64.s:539
  ADCQ (.reg DX) (.reg R9),
  -- p751/arith_amd64.s:540
  ADCQ (.imm 0) (.reg R15),
  -- p751/arith_amd64.s:542
  XORQ (.reg R8) (.reg R8),
  -- p751/arith_amd64.s:543
  MOVQ (.reg R10) (.reg AX),
  -- p751/arith_amd64.s:544
  MULQ (.reg R11),
  -- p751/arith_amd64.s:545
  ADDQ (.reg AX) (.reg R9),
  -- p751/arith_amd64.s:546
  MOVQ (.mem CX 6) (.reg R13),
  -- p751/arith_amd64.s:547
  ADCQ (.reg DX) (.reg R15),
  -- p751/arith_amd64.s:548
  ADCQ (.imm 0) (.reg R8),
  -- p751/arith_amd64.s:550
  MOVQ (.mem CX 2) (.reg AX),
  -- p751/arith_amd64.s:551
  MULQ (.reg R13),
  -- p751/arith_amd64.s:552
  ADDQ (.reg AX) (.reg R9),
  -- p751/arith_amd64.s:553
  ADCQ (.reg DX) (.reg R15),
  -- p751/arith_amd64.s:554
  MOVQ (.mem CX 7) (.reg AX),
  -- p751/arith_amd64.s:555
  ADCQ (.imm 0) (.reg R8),
  -- p751/arith_amd64.s:557
  MULQ (.reg R12),
  -- p751/arith_amd64.s:558
  ADDQ (.reg AX) (.reg R9),
  -- p751/arith_amd64.s:559
  MOVQ (.reg R9) (.mem SP 2),
  -- p751/arith_amd64.s:560
  ADCQ (.reg DX) (.reg R15),
  -- p751/arith_amd64.s:561
  ADCQ (.imm 0) (.reg R8),
  -- p751/arith_amd64.s:563
  XORQ (.reg R9) (.reg R9),
  -- p751/arith_amd64.s:564
  MOVQ (.mem CX 9) (.reg AX),
  -- p751/arith_amd64.s:565
  MULQ (.reg R11),
  -- p751/arith_amd64.s:566
  ADDQ (.reg AX) (.reg R15),
  -- p751/arith_amd64.s:567
  ADCQ (.reg DX) (.reg R8),
  -- p751/arith_amd64.s:568
  ADCQ (.imm 0) (.reg R9),
  -- p751/arith_amd64.s:570
  MOVQ (.mem CX 3) (.reg AX),
  -- p751/arith_amd64.s:571
  MULQ (.reg R13),
  -- p751/arith_amd64.s:572
  ADDQ (.reg AX) (.reg R15),
  -- p751/arith_amd64.s:573
  ADCQ (.reg DX) (.reg R8),
  -- p751/arith_amd64.s:574
  ADCQ (.imm 0) (.reg R9),
  -- p751/arith_amd64.s:576
  MOVQ (.reg R10) (.reg AX),
  -- p751/arith_amd64.s:577
  MULQ (.reg R12),
  -- p751/arith_amd64.s:578
  ADDQ (.reg AX) (.reg R15),
  -- p751/arith_amd64.s:579
  ADCQ (.reg DX) (.reg R8),
  -- p751/arith_amd64.s:580
  ADCQ (.imm 0) (.reg R9),
  -- p751/arith_amd64.s:582
  MOVQ (.mem CX 2) (.reg R14),
  -- p751/arith_amd64.s:583
  MOVQ (.mem CX 7) (.reg AX),
  -- p751/arith_amd64.s:584
  MULQ (.reg R14),
  -- p751/arith_amd64.s:585
  ADDQ (.reg AX) (.reg R15),
  -- p751/arith_amd64.s:586
  MOVQ (.reg R15) (.mem SP 3),
  -- p751/arith_amd64.s:587
  ADCQ (.reg DX) (.reg R8),
  -- p751/arith_amd64.s:588
  ADCQ (.imm 0) (.reg R9),
  -- p751/arith_amd64.s:590
  XORQ (.reg R10) (.reg R10),
  -- p751/arith_amd64.s:591
  MOVQ (.mem CX 10) (.reg AX),
  -- p751/arith_amd64.s:592
  MULQ (.reg R11),
  -- p751/arith_amd64.s:593
  ADDQ (.reg AX) (.reg R8),
  -- p751/arith_amd64.s:594
  ADCQ (.reg DX) (.reg R9),
  -- p751/arith_amd64.s:595
  ADCQ (.imm 0) (.reg R10),
  -- p751/arith_amd64.s:597
  MOVQ (.mem CX 8) (.reg AX),
  -- p751/arith_amd64.s:598
  MULQ (.reg R14),
  -- p751/arith_amd64.s:599
  ADDQ (.reg AX) (.reg R8),
  -- p751/arith_amd64.s:600
  ADCQ (.reg DX) (.reg R9),
  -- p751/arith_amd64.s:601
  ADCQ (.imm 0) (.reg R10),
  -- p751/arith_amd64.s:603
  MOVQ (.mem CX 6) (.reg R15),
  -- p751/arith_amd64.s:604
  MOVQ (.mem CX 4) (.reg AX),
  -- p751/arith_amd64.s:605
  MULQ (.reg R15),
  -- p751/arith_amd64.s:606
  ADDQ (.reg AX) (.reg R8),
  -- p751/arith_amd64.s:607
  ADCQ (.reg DX) (.reg R9),
  -- p751/arith_amd64.s:608
  ADCQ (.imm 0) (.reg R10),
  -- p751/arith_amd64.s:610
  MOVQ (.mem CX 9) (.reg AX),
  -- p751/arith_amd64.s:611
  MULQ (.reg R12),
  -- p751/arith_amd64.s:612
  ADDQ (.reg AX) (.reg R8),
  -- p751/arith_amd64.s:613
  ADCQ (.reg DX) (.reg R9),
  -- p751/arith_amd64.s:614
  ADCQ (.imm 0) (.reg R10),
  -- p751/arith_amd64.s:616
  MOVQ (.mem CX 3) (.reg R13),
  -- p751/arith_amd64.s:617
  MOVQ (.mem CX 7) (.reg AX),
  -- p751/arith_amd64.s:618
  MULQ (.reg R13),
  -- p751/arith_amd64.s:619
  ADDQ (.reg AX) (.reg R8),
  -- p751/arith_amd64.s:620
  MOVQ (.reg R8) (.mem SP 4),
  -- p751/arith_amd64.s:621
  ADCQ (.reg DX) (.reg R9),
  -- p751/arith_amd64.s:622
  ADCQ (.imm 0) (.reg R10),
  -- p751/arith_amd64.s:624
  XORQ (.reg R8) (.reg R8),
  -- p751/arith_amd64.s:625
  MOVQ (.mem CX 11) (.reg AX),
  -- p751/arith_amd64.s:626
  MULQ (.reg R11),
  -- p751/arith_amd64.s:627
  ADDQ (.reg AX) (.reg R9),
  -- p751/arith_amd64.s:628
  ADCQ (.reg DX) (.reg R10),
  -- p751/arith_amd64.s:629
  ADCQ (.imm 0) (.reg R8),
  -- p751/arith_amd64.s:631
  MOVQ (.mem CX 8) (.reg AX),
  -- p751/arith_amd64.s:632
  MULQ (.reg R13),
  -- p751/arith_amd64.s:633
  ADDQ (.reg AX) (.reg R9),
  -- p751/arith_amd64.s:634
  ADCQ (.reg DX) (.reg R10),
  -- p751/arith_amd64.s:635
  ADCQ (.imm 0) (.reg R8),
  -- p751/arith_amd64.s:637
  MOVQ (.mem CX 9) (.reg AX),
  -- p751/arith_amd64.s:638
  MULQ (.reg R14),
  -- p751/arith_amd64.s:639
  ADDQ (.reg AX) (.reg R9),
  -- p751/arith_amd64.s:640
  ADCQ (.reg DX) (.reg R10),
  -- p751/arith_amd64.s:641
  ADCQ (.imm 0) (.reg R8),
  -- p751/arith_amd64.s:643
  MOVQ (.mem CX 5) (.reg AX),
  -- p751/arith_amd64.s:644
  MULQ (.reg R15),
  -- p751/arith_amd64.s:645
  ADDQ (.reg AX) (.reg R9),
  -- p751/arith_amd64.s:646
  ADCQ (.reg DX) (.reg R10),
  -- p751/arith_amd64.s:647
  ADCQ (.imm 0) (.reg R8),
  -- p751/arith_amd64.s:649
  MOVQ (.mem CX 10) (.reg AX),
  -- p751/arith_amd64.s:650
  MULQ (.reg R12),
  -- p751/arith_amd64.s:651
  ADDQ (.reg AX) (.reg R9),
  -- p751/arith_amd64.s:652
  ADCQ (.reg DX) (.reg R10),
  -- p751/arith_amd64.s:653
  ADCQ (.imm 0) (.reg R8),
  -- p751/arith_amd64.s:655
  MOVQ (.mem CX 4) (.reg R15),
  -- p751/arith_amd64.s:656
  MOVQ (.mem CX 7) (.reg AX),
  -- p751/arith_amd64.s:657
  MULQ (.reg R15),
  -- p751/arith_amd64.s:658
  ADDQ (.reg AX) (.reg R9),
  -- p751/arith_amd64.s:659
  MOVQ (.reg R9) (.mem SP 5),
  -- p751/arith_amd64.s:660
  ADCQ (.reg DX) (.reg R10),
  -- p751/arith_amd64.s:661
  ADCQ (.imm 0) (.reg R8),
  -- p751/arith_amd64.s:663
  XORQ (.reg R9) (.reg R9),
  -- p751/arith_amd64.s:664
  MOVQ (.mem CX 8) (.reg AX),
  -- p751/arith_amd64.s:665
  MULQ (.reg R15),
  -- p751/arith_amd64.s:666
  ADDQ (.reg AX) (.reg R10),
  -- p751/arith_amd64.s:667
  ADCQ (.reg DX) (.reg R8),
  -- p751/arith_amd64.s:668
  ADCQ (.imm 0) (.reg R9),
  -- p751/arith_amd64.s:670
  MOVQ (.mem CX 11) (.reg AX),
  -- p751/arith_amd64.s:671
  MULQ (.reg R12),
  -- p751/arith_amd64.s:672
  ADDQ (.reg AX) (.reg R10),
  -- p751/arith_amd64.s:673
  ADCQ (.reg DX) (.reg R8),
  -- p751/arith_amd64.s:674
  ADCQ (.imm 0) (.reg R9),
  -- p751/arith_amd64.s:676
  MOVQ (.mem CX 10) (.reg AX),
  -- p751/arith_amd64.s:677
  MULQ (.reg R14),
  -- p751/arith_amd64.s:678
  ADDQ (.reg AX) (.reg R10),
  -- p751/arith_amd64.s:679
  ADCQ (.reg DX) (.reg R8),
  -- p751/arith_amd64.s:680
  ADCQ (.imm 0) (.reg R9),
  -- p751/arith_amd64.s:682
  MOVQ (.mem CX 5) (.reg R11),
  -- p751/arith_amd64.s:683
  MOVQ (.mem CX 7) (.reg AX),
  -- p751/arith_amd64.s:684
  MULQ (.reg R11),
  -- p751/arith_amd64.s:685
  ADDQ (.reg AX) (.reg R10),
  -- p751/arith_amd64.s:686
  ADCQ (.reg DX) (.reg R8),
  -- p751/arith_amd64.s:687
  ADCQ (.imm 0) (.reg R9),
  -- p751/arith_amd64.s:689
  MOVQ (.mem CX 9) (.reg AX),
  -- p751/arith_amd64.s:690
  MULQ (.reg R13),
  -- p751/arith_amd64.s:691
  ADDQ (.reg AX) (.reg R10),
  -- p751/arith_amd64.s:692
  MOVQ (.reg R10) (.mem SP 6),
  -- p751/arith_amd64.s:693
  ADCQ (.reg DX) (.reg R8),
  -- p751/arith_amd64.s:694
  ADCQ (.imm 0) (.reg R9),
  -- p751/arith_amd64.s:696
  XORQ (.reg R10) (.reg R10),
  -- p751/arith_amd64.s:697
  MOVQ (.mem CX 11) (.reg AX),
  -- p751/arith_amd64.s:698
  MULQ (.reg R14),
  -- p751/arith_amd64.s:699
  ADDQ (.reg AX) (.reg R8),
  -- p751/arith_amd64.s:700
  ADCQ (.reg DX) (.reg R9),
  -- p751/arith_amd64.s:701
  ADCQ (.imm 0) (.reg R10),
  -- p751/arith_amd64.s:703
  MOVQ (.mem CX 8) (.reg AX),
  -- p751/arith_amd64.s:704
  MULQ (.reg R11),
  -- p751/arith_amd64.s:705
  ADDQ (.reg AX) (.reg R8),
  -- p751/arith_amd64.s:706
  ADCQ (.reg DX) (.reg R9),
  -- p751/arith_amd64.s:707
  ADCQ (.imm 0) (.reg R10),
  -- p751/arith_amd64.s:709
  MOVQ (.mem CX 10) (.reg AX),
  -- p751/arith_amd64.s:710
  MULQ (.reg R13),
  -- p751/arith_amd64.s:711
  ADDQ (.reg AX) (.reg R8),
  -- p751/arith_amd64.s:712
  ADCQ (.reg DX) (.reg R9),
  -- p751/arith_amd64.s:713
  ADCQ (.imm 0) (.reg R10),
  -- p751/arith_amd64.s:715
  MOVQ (.mem CX 9) (.reg AX),
  -- p751/arith_amd64.s:716
  MULQ (.reg R15),
  -- p751/arith_amd64.s:717
  ADDQ (.reg AX) (.reg R8),
  -- p751/arith_amd64.s:718
  MOVQ (.reg R8) (.mem SP 7),
  -- p751/arith_amd64.s:719
  ADCQ (.reg DX) (.reg R9),
  -- p751/arith_amd64.s:720
  ADCQ (.imm 0) (.reg R10),
  -- p751/arith_amd64.s:722
  XORQ (.reg R8) (.reg R8),
  -- p751/arith_amd64.s:723
  MOVQ (.mem CX 9) (.reg AX),
  -- p751/arith_amd64.s:724
  MULQ (.reg R11),
  -- p751/arith_amd64.s:725
  ADDQ (.reg AX) (.reg R9),
  -- p751/arith_amd64.s:726
  ADCQ (.reg DX) (.reg R10),
  -- p751/arith_amd64.s:727
  ADCQ (.imm 0) (.reg R8),
  -- p751/arith_amd64.s:729
  MOVQ (.mem CX 10) (.reg AX),
  -- p751/arith_amd64.s:730
  MULQ (.reg R15),
  -- p751/arith_amd64.s:731
  ADDQ (.reg AX) (.reg R9),
  -- p751/arith_amd64.s:732
  ADCQ (.reg DX) (.reg R10),
  -- p751/arith_amd64.s:733
  ADCQ (.imm 0) (.reg R8),
  -- p751/arith_amd64.s:735
  MOVQ (.mem CX 11) (.reg AX),
  -- p751/arith_amd64.s:736
  MULQ (.reg R13),
  -- p751/arith_amd64.s:737
  ADDQ (.reg AX) (.reg R9),
  -- p751/arith_amd64.s:738
  MOVQ (.reg R9) (.mem SP 8),
  -- p751/arith_amd64.s:739
  ADCQ (.reg DX) (.reg R10),
  -- p751/arith_amd64.s:740
  ADCQ (.imm 0) (.reg R8),
  -- p751/arith_amd64.s:742
  XORQ (.reg R9) (.reg R9),
  -- p751/arith_amd64.s:743
  MOVQ (.mem CX 11) (.reg AX),
  -- p751/arith_amd64.s:744
  MULQ (.reg R15),
  -- p751/arith_amd64.s:745
  ADDQ (.reg AX) (.reg R10),
  -- p751/arith_amd64.s:746
  ADCQ (.reg DX) (.reg R8),
  -- p751/arith_amd64.s:747
  ADCQ (.imm 0) (.reg R9),
  -- p751/arith_amd64.s:749
  MOVQ (.mem CX 10) (.reg AX),
  -- p751/arith_amd64.s:750
  MULQ (.reg R11),
  -- p751/arith_amd64.s:751
  ADDQ (.reg AX) (.reg R10),
  -- p751/arith_amd64.s:752
  ADCQ (.reg DX) (.reg R8),
  -- p751/arith_amd64.s:753
  ADCQ (.imm 0) (.reg R9),
  -- p751/arith_amd64.s:755
  MOVQ (.mem CX 11) (.reg AX),
  -- p751/arith_amd64.s:756
  MULQ (.reg R11),
  -- p751/arith_amd64.s:757
  ADDQ (.reg AX) (.reg R8),
  -- p751/arith_amd64.s:758
  ADCQ (.reg DX) (.reg R9),
  -- p751/arith_amd64.s:760
  MOVQ (.mem SP 11) (.reg AX),
  -- p751/arith_amd64.s:761
  MOVQ (.mem CX 0) (.reg DX),
  -- p751/arith_amd64.s:762
  ANDQ (.reg AX) (.reg R12),
  -- p751/arith_amd64.s:763
  ANDQ (.reg AX) (.reg R14),
  -- p751/arith_amd64.s:764
  ANDQ (.reg AX) (.reg DX),
  -- p751/arith_amd64.s:765
  ANDQ (.reg AX) (.reg R13),
  -- p751/arith_amd64.s:766
  ANDQ (.reg AX) (.reg R15),
  -- p751/arith_amd64.s:767
  ANDQ (.reg AX) (.reg R11),
  -- p751/arith_amd64.s:768
  MOVQ (.mem SP 6) (.reg AX),
  -- p751/arith_amd64.s:769
  ADDQ (.reg AX) (.reg DX),
  -- p751/arith_amd64.s:770
  MOVQ (.mem SP 7) (.reg AX),
  -- p751/arith_amd64.s:771
  ADCQ (.reg AX) (.reg R12),
  -- p751/arith_amd64.s:772
  MOVQ (.mem SP 8) (.reg AX),
  -- p751/arith_amd64.s:773
  ADCQ (.reg AX) (.reg R14),
  -- p751/arith_amd64.s:774
  ADCQ (.reg R10) (.reg R13),
  -- p751/arith_amd64.s:775
  ADCQ (.reg R8) (.reg R15),
  -- p751/arith_amd64.s:776
  ADCQ (.reg R9) (.reg R11),
  -- p751/arith_amd64.s:777
  MOVQ (.mem SP 10) (.reg AX),
  -- p751/arith_amd64.s:778
  MOVQ (.reg DX) (.mem SP 6),
  -- p751/arith_amd64.s:779
  MOVQ (.reg R12) (.mem SP 7),
  -- p751/arith_amd64.s:780
  MOVQ (.reg R14) (.mem SP 8),
  -- p751/arith_amd64.s:781
  MOVQ (.reg R13) (.mem SP 9),
  -- p751/arith_amd64.s:782
  MOVQ (.reg R15) (.mem SP 10),
  -- p751/arith_amd64.s:783
  MOVQ (.reg R11) (.mem SP 11),
  -- p751/arith_amd64.s:785
  MOVQ (.mem CX 6) (.reg R8),
  -- p751/arith_amd64.s:786
  MOVQ (.mem CX 7) (.reg R9),
  -- p751/arith_amd64.s:787
  MOVQ (.mem CX 8) (.reg R10),
  -- p751/arith_amd64.s:788
  MOVQ (.mem CX 9) (.reg R11),
  -- p751/arith_amd64.s:789
  MOVQ (.mem CX 10) (.reg R12),
  -- p751/arith_amd64.s:790
  MOVQ (.mem CX 11) (.reg R13),
  -- p751/arith_amd64.s:791
  ANDQ (.reg AX) (.reg R8),
  -- p751/arith_amd64.s:792
  ANDQ (.reg AX) (.reg R9),
  -- p751/arith_amd64.s:793
  ANDQ (.reg AX) (.reg R10),
  -- p751/arith_amd64.s:794
  ANDQ (.reg AX) (.reg R11),
  -- p751/arith_amd64.s:795
  ANDQ (.reg AX) (.reg R12),
  -- p751/arith_amd64.s:796
  ANDQ (.reg AX) (.reg R13),
  -- p751/arith_amd64.s:797
  MOVQ (.mem SP 6) (.reg AX),
  -- p751/arith_amd64.s:798
  ADDQ (.reg AX) (.reg R8),
  -- p751/arith_amd64.s:799
  MOVQ (.mem SP 7) (.reg AX),
  -- p751/arith_amd64.s:800
  ADCQ (.reg AX) (.reg R9),
  -- p751/arith_amd64.s:801
  MOVQ (.mem SP 8) (.reg AX),
  -- p751/arith_amd64.s:802
  ADCQ (.reg AX) (.reg R10),
  -- p751/arith_amd64.s:803
  MOVQ (.mem SP 9) (.reg AX),
  -- p751/arith_amd64.s:804
  ADCQ (.reg AX) (.reg R11),
  -- p751/arith_amd64.s:805
  MOVQ (.mem SP 10) (.reg AX),
  -- p751/arith_amd64.s:806
  ADCQ (.reg AX) (.reg R12),
  -- p751/arith_amd64.s:807
  MOVQ (.mem SP 11) (.reg AX),
  -- p751/arith_amd64.s:808
  ADCQ (.reg AX) (.reg R13),
  -- p751/arith_amd64.s:809
  MOVQ (.reg R8) (.mem SP 6),
  -- p751/arith_amd64.s:810
  MOVQ (.reg R9) (.mem SP 7),
  -- p751/arith_amd64.s:811
  MOVQ (.reg R11) (.mem SP 9),
  -- p751/arith_amd64.s:814
  MOVQ (.mem DI 0) (.reg R11),
  -- p751/arith_amd64.s:815
  MOVQ (.mem SI 0) (.reg AX),
  -- p751/arith_amd64.s:816
  MULQ (.reg R11),
  -- p751/arith_amd64.s:817
  XORQ (.reg R9) (.reg R9),
  -- p751/arith_amd64.s:818
  MOVQ (.reg AX) (.mem CX 0),
  -- p751/arith_amd64.s:819
  MOVQ (.reg R10) (.mem SP 8),
  -- p751/arith_amd64.s:820
  MOVQ (.reg DX) (.reg R8),
  -- p751/arith_amd64.s:822
  MOVQ (.mem SI 1) (.reg AX),
  -- p751/arith_amd64.s:823
  MULQ (.reg R11),
  -- p751/arith_amd64.s:824
  XORQ (.reg R10) (.reg R10),
  -- p751/arith_amd64.s:825
  ADDQ (.reg AX) (.reg R8),
  -- p751/arith_amd64.s:826
  MOVQ (.reg R12) (.mem SP 10),
  -- p751/arith_amd64.s:827
  ADCQ (.reg DX) (.reg R9),
  -- p751/arith_amd64.s:829
  MOVQ (.mem DI 1) (.reg R12),
  -- p751/arith_amd64.s:830
  MOVQ (.mem SI 0) (.reg AX),
  -- p751/arith_amd64.s:831
  MULQ (.reg R12),
  -- p751/arith_amd64.s:832
  ADDQ (.reg AX) (.reg R8),
  -- p751/arith_amd64.s:833
  MOVQ (.reg R8) (.mem CX 1),
  -- p751/arith_amd64.s:834
  ADCQ (.reg DX) (.reg R9),
  -- p751/arith_amd64.s:835
  MOVQ (.reg R13) (.mem SP 11),
  -- p751/arith_amd64.s:836
  ADCQ (.imm 0) (.reg R10),
  -- p751/arith_amd64.s:838
  XORQ (.reg R8) (.reg R8),
  -- p751/arith_amd64.s:839
  MOVQ (.mem SI 2) (.reg AX),
  -- p751/arith_amd64.s:840
  MULQ (.reg R11),
  -- p751/arith_amd64.s:841
  ADDQ (.reg AX) (.reg R9),
  -- p751/arith_amd64.s:842
  ADCQ (.reg DX) (.reg R10),
  -- p751/arith_amd64.s:843
  ADCQ (.imm 0) (.reg R8),
  -- p751/arith_amd64.s:845
  MOVQ (.mem SI 0) (.reg R13),
  -- p751/arith_amd64.s:846
  MOVQ (.mem DI 2) (.reg AX),
  -- p751/arith_amd64.s:847
  MULQ (.reg R13),
  -- p751/arith_amd64.s:848
  ADDQ (.reg AX) (.reg R9),
  -- p751/arith_amd64.s:849
  ADCQ (.reg DX) (.reg R10),
  -- p751/arith_amd64.s:850
  ADCQ (.imm 0) (.reg R8),
  -- p751/arith_amd64.s:852
  MOVQ (.mem SI 1) (.reg AX),
  -- p751/arith_amd64.s:853
  MULQ (.reg R12),
  -- p751/arith_amd64.s:854
  ADDQ (.reg AX) (.reg R9),
  -- p751/arith_amd64.s:855
  MOVQ (.reg R9) (.mem CX 2),
  -- p751/arith_amd64.s:856
  ADCQ (.reg DX) (.reg R10),
  -- p751/arith_amd64.s:857
  ADCQ (.imm 0) (.reg R8),
  -- p751/arith_amd64.s:859
  XORQ (.reg R9) (.reg R9),
  -- p751/arith_amd64.s:860
  MOVQ (.mem SI 3) (.reg AX),
  -- p751/arith_amd64.s:861
  MULQ (.reg R11),
  -- p751/arith_amd64.s:862
  ADDQ (.reg AX) (.reg R10),
  -- p751/arith_amd64.s:863
  ADCQ (.reg DX) (.reg R8),
  -- p751/arith_amd64.s:864
  ADCQ (.imm 0) (.reg R9),
  -- p751/arith_amd64.s:866
  MOVQ (.mem DI 3) (.reg AX),
  -- p751/arith_amd64.s:867
  MULQ (.reg R13),
  -- p751/arith_amd64.s:868
  ADDQ (.reg AX) (.reg R10),
  -- p751/arith_amd64.s:869
  ADCQ (.reg DX) (.reg R8),
  -- p751/arith_amd64.s:870
  ADCQ (.imm 0) (.reg R9),
  -- p751/arith_amd64.s:872
  MOVQ (.mem SI 2) (.reg AX),
  -- p751/arith_amd64.s:873
  MULQ (.reg R12),
  -- p751/arith_amd64.s:874
  ADDQ (.reg AX) (.reg R10),
  -- p751/arith_amd64.s:875
  ADCQ (.reg DX) (.reg R8),
  -- p751/arith_amd64.s:876
  ADCQ (.imm 0) (.reg R9),
  -- p751/arith_amd64.s:878
  MOVQ (.mem DI 2) (.reg R14),
  -- p751/arith_amd64.s:879
  MOVQ (.mem SI 1) (.reg AX),
  -- p751/arith_amd64.s:880
  MULQ (.reg R14),
  -- p751/arith_amd64.s:881
  ADDQ (.reg AX) (.reg R10),
  -- p751/arith_amd64.s:882
  MOVQ (.reg R10) (.mem CX 3),
  -- p751/arith_amd64.s:883
  ADCQ (.reg DX) (.reg R8),
  -- p751/arith_amd64.s:884
  ADCQ (.imm 0) (.reg R9),
  -- p751/arith_amd64.s:886
  XORQ (.reg R10) (.reg R10),
  -- p751/arith_amd64.s:887
  MOVQ (.mem SI 4) (.reg AX),
  -- p751/arith_amd64.s:888
  MULQ (.reg R11),
  -- p751/arith_amd64.s:889
  ADDQ (.reg AX) (.reg R8),
  -- p751/arith_amd64.s:890
  ADCQ (.reg DX) (.reg R9),
  -- p751/arith_amd64.s:891
  ADCQ (.imm 0) (.reg R10),
  -- p751/arith_amd64.s:893
  MOVQ (.mem SI 2) (.reg AX),
  -- p751/arith_amd64.s:894
  MULQ (.reg R14),
  -- p751/arith_amd64.s:895
  ADDQ (.reg AX) (.reg R8),
  -- p751/arith_amd64.s:896
  ADCQ (.reg DX) (.reg R9),
  -- p751/arith_amd64.s:897
  ADCQ (.imm 0) (.reg R10),
  -- p751/arith_amd64.s:899
  MOVQ (.mem DI 4) (.reg AX),
  -- p751/arith_amd64.s:900
  MULQ (.reg R13),
  -- p751/arith_amd64.s:901
  ADDQ (.reg AX) (.reg R8),
  -- p751/arith_amd64.s:902
  ADCQ (.reg DX) (.reg R9),
  -- p751/arith_amd64.s:903
  ADCQ (.imm 0) (.reg R10),
  -- p751/arith_amd64.s:905
  MOVQ (.mem SI 3) (.reg AX),
  -- p751/arith_amd64.s:906
  MULQ (.reg R12),
  -- p751/arith_amd64.s:907
  ADDQ (.reg AX) (.reg R8),
  -- p751/arith_amd64.s:908
  ADCQ (.reg DX) (.reg R9),
  -- p751/arith_amd64.s:909
  ADCQ (.imm 0) (.reg R10),
  -- p751/arith_amd64.s:911
  MOVQ (.mem DI 3) (.reg R13),
  -- p751/arith_amd64.s:912
  MOVQ (.mem SI 1) (.reg AX),
  -- p751/arith_amd64.s:913
  MULQ (.reg R13),
  -- p751/arith_amd64.s:914
  ADDQ (.reg AX) (.reg R8),
  -- p751/arith_amd64.s:915
  MOVQ (.reg R8) (.mem CX 4),
  -- p751/arith_amd64.s:916
  ADCQ (.reg DX) (.reg R9),
  -- p751/arith_amd64.s:917
  ADCQ (.imm 0) (.reg R10),
  -- p751/arith_amd64.s:919
  XORQ (.reg R8) (.reg R8),
  -- p751/arith_amd64.s:920
  MOVQ (.mem SI 5) (.reg AX),
  -- p751/arith_amd64.s:921
  MULQ (.reg R11),
  -- p751/arith_amd64.s:922
  ADDQ (.reg AX) (.reg R9),
  -- p751/arith_amd64.s:923
  ADCQ (.reg DX) (.reg R10),
  -- p751/arith_amd64.s:924
  ADCQ (.imm 0) (.reg R8),
  -- p751/arith_amd64.s:926
  MOVQ (.mem SI 2) (.reg AX),
  -- p751/arith_amd64.s:927
  MULQ (.reg R13),
  -- p751/arith_amd64.s:928
  ADDQ (.reg AX) (.reg R9),
  -- p751/arith_amd64.s:929
  ADCQ (.reg DX) (.reg R10),
  -- p751/arith_amd64.s:930
  ADCQ (.imm 0) (.reg R8),
  -- p751/arith_amd64.s:932
  MOVQ (.mem SI 3) (.reg AX),
  -- p751/arith_amd64.s:933
  MULQ (.reg R14),
  -- p751/arith_amd64.s:934
  ADDQ (.reg AX) (.reg R9),
  -- p751/arith_amd64.s:935
  ADCQ (.reg DX) (.reg R10),
  -- p751/arith_amd64.s:936
  ADCQ (.imm 0) (.reg R8),
  -- p751/arith_amd64.s:938
  MOVQ (.mem DI 5) (.reg R11),
  -- p751/arith_amd64.s:939
  MOVQ (.mem SI 0) (.reg AX),
  -- p751/arith_amd64.s:940
  MULQ (.reg R11),
  -- p751/arith_amd64.s:941
  ADDQ (.reg AX) (.reg R9),
  -- p751/arith_amd64.s:942
  ADCQ (.reg DX) (.reg R10),
  -- p751/arith_amd64.s:943
  ADCQ (.imm 0) (.reg R8),
  -- p751/arith_amd64.s:945
  MOVQ (.mem SI 4) (.reg AX),
  -- p751/arith_amd64.s:946
  MULQ (.reg R12),
  -- p751/arith_amd64.s:947
  ADDQ (.reg AX) (.reg R9),
  -- p751/arith_amd64.s:948
  ADCQ (.reg DX) (.reg R10),
  -- p751/arith_amd64.s:949
  ADCQ (.imm 0) (.reg R8),
  -- p751/arith_amd64.s:951
  MOVQ (.mem DI 4) (.reg R15),
  -- p751/arith_amd64.s:952
  MOVQ (.mem SI 1) (.reg AX),
  -- p751/arith_amd64.s:953
  MULQ (.reg R15),
  -- p751/arith_amd64.s:954
  ADDQ (.reg AX) (.reg R9),
  -- p751/arith_amd64.s:955
  MOVQ (.reg R9) (.mem CX 5),
  -- p751/arith_amd64.s:956
  ADCQ (.reg DX) (.reg R10),
  -- p751/arith_amd64.s:957
  ADCQ (.imm 0) (.reg R8),
  -- p751/arith_amd64.s:959
  XORQ (.reg R9) (.reg R9),
  -- p751/arith_amd64.s:960
  MOVQ (.mem SI 2) (.reg AX),
  -- p751/arith_amd64.s:961
  MULQ (.reg R15),
  -- p751/arith_amd64.s:962
  ADDQ (.reg AX) (.reg R10),
  -- p751/arith_amd64.s:963
  ADCQ (.reg DX) (.reg R8),
  -- p751/arith_amd64.s:964
  ADCQ (.imm 0) (.reg R9),
  -- p751/arith_amd64.s:966
  MOVQ (.mem SI 5) (.reg AX),
  -- p751/arith_amd64.s:967
  MULQ (.reg R12),
  -- p751/arith_amd64.s:968
  ADDQ (.reg AX) (.reg R10),
  -- p751/arith_amd64.s:969
  ADCQ (.reg DX) (.reg R8),
  -- p751/arith_amd64.s:970
  ADCQ (.imm 0) (.reg R9),
  -- p751/arith_amd64.s:972
  MOVQ (.mem SI 4) (.reg AX),
  -- p751/arith_amd64.s:973
  MULQ (.reg R14),
  -- p751/arith_amd64.s:974
  ADDQ (.reg AX) (.reg R10),
  -- p751/arith_amd64.s:975
  ADCQ (.reg DX) (.reg R8),
  -- p751/arith_amd64.s:976
  ADCQ (.imm 0) (.reg R9),
  -- p751/arith_amd64.s:978
  MOVQ (.mem SI 1) (.reg AX),
  -- p751/arith_amd64.s:979
  MULQ (.reg R11),
  -- p751/arith_amd64.s:980
  ADDQ (.reg AX) (.reg R10),
  -- p751/arith_amd64.s:981
  ADCQ (.reg DX) (.reg R8),
  -- p751/arith_amd64.s:982
  ADCQ (.imm 0) (.reg R9),
  -- p751/arith_amd64.s:984
  MOVQ (.mem SI 3) (.reg AX),
  -- p751/arith_amd64.s:985
  MULQ (.reg R13),
  -- p751/arith_amd64.s:986
  ADDQ (.reg AX) (.reg R10),
  -- p751/arith_amd64.s:987
  MOVQ (.reg R10) (.mem CX 6),
  -- p751/arith_amd64.s:988
  ADCQ (.reg DX) (.reg R8),
  -- p751/arith_amd64.s:989
  ADCQ (.imm 0) (.reg R9),
  -- p751/arith_amd64.s:991
  XORQ (.reg R10) (.reg R10),
  -- p751/arith_amd64.s:992
  MOVQ (.mem SI 5) (.reg AX),
  -- p751/arith_amd64.s:993
  MULQ (.reg R14),
  -- p751/arith_amd64.s:994
  ADDQ (.reg AX) (.reg R8),
  -- p751/arith_amd64.s:995
  ADCQ (.reg DX) (.reg R9),
  -- p751/arith_amd64.s:996
  ADCQ (.imm 0) (.reg R10),
  -- p751/arith_amd64.s:998
  MOVQ (.mem SI 2) (.reg AX),
  -- p751/arith_amd64.s:999
  MULQ (.reg R11),
  -- p751/arith_amd64.s:1000
  ADDQ (.reg AX) (.reg R8),
  -- p751/arith_amd64.s:1001
  ADCQ (.reg DX) (.reg R9),
  -- p751/arith_amd64.s:1002
  ADCQ (.imm 0) (.reg R10),
  -- p751/arith_amd64.s:1004
  MOVQ (.mem SI 4) (.reg AX),
  -- p751/arith_amd64.s:1005
  MULQ (.reg R13),
  -- p751/arith_amd64.s:1006
  ADDQ (.reg AX) (.reg R8),
  -- p751/arith_amd64.s:1007
  ADCQ (.reg DX) (.reg R9),
  -- p751/arith_amd64.s:1008
  ADCQ (.imm 0) (.reg R10),
  -- p751/arith_amd64.s:1010
  MOVQ (.mem SI 3) (.reg AX),
  -- p751/arith_amd64.s:1011
  MULQ (.reg R15),
  -- p751/arith_amd64.s:1012
  ADDQ (.reg AX) (.reg R8),
  -- p751/arith_amd64.s:1013
  MOVQ (.reg R8) (.mem CX 7),
  -- p751/arith_amd64.s:1014
  ADCQ (.reg DX) (.reg R9),
  -- p751/arith_amd64.s:1015
  ADCQ (.imm 0) (.reg R10),
  -- p751/arith_amd64.s:1017
  XORQ (.reg R8) (.reg R8),
  -- p751/arith_amd64.s:1018
  MOVQ (.mem SI 3) (.reg AX),
  -- p751/arith_amd64.s:1019
  MULQ (.reg R11),
  -- p751/arith_amd64.s:1020
  ADDQ (.reg AX) (.reg R9),
  -- p751/arith_amd64.s:1021
  ADCQ (.reg DX) (.reg R10),
  -- p751/arith_amd64.s:1022
  ADCQ (.imm 0) (.reg R8),
  -- p751/arith_amd64.s:1024
  MOVQ (.mem SI 4) (.reg AX),
  -- p751/arith_amd64.s:1025
  MULQ (.reg R15),
  -- p751/arith_amd64.s:1026
  ADDQ (.reg AX) (.reg R9),
  -- p751/arith_amd64.s:1027
  ADCQ (.reg DX) (.reg R10),
  -- p751/arith_amd64.s:1028
  ADCQ (.imm 0) (.reg R8),
  -- p751/arith_amd64.s:1030
  MOVQ (.mem SI 5) (.reg AX),
  -- p751/arith_amd64.s:1031
  MULQ (.reg R13),
  -- p751/arith_amd64.s:1032
  ADDQ (.reg AX) (.reg R9),
  -- p751/arith_amd64.s:1033
  MOVQ (.reg R9) (.mem CX 8),
  -- p751/arith_amd64.s:1034
  ADCQ (.reg DX) (.reg R10),
  -- p751/arith_amd64.s:1035
  ADCQ (.imm 0) (.reg R8),
  -- p751/arith_amd64.s:1037
  XORQ (.reg R9) (.reg R9),
  -- p751/arith_amd64.s:1038
  MOVQ (.mem SI 5) (.reg AX),
  -- p751/arith_amd64.s:1039
  MULQ (.reg R15),
  -- p751/arith_amd64.s:1040
  ADDQ (.reg AX) (.reg R10),
  -- p751/arith_amd64.s:1041
  ADCQ (.reg DX) (.reg R8),
  -- p751/arith_amd64.s:1042
  ADCQ (.imm 0) (.reg R9),
  -- p751/arith_amd64.s:1044
  MOVQ (.mem SI 4) (.reg AX),
  -- p751/arith_amd64.s:1045
  MULQ (.reg R11),
  -- p751/arith_amd64.s:1046
  ADDQ (.reg AX) (.reg R10),
  -- p751/arith_amd64.s:1047
  MOVQ (.reg R10) (.mem CX 9),
  -- p751/arith_amd64.s:1048
  ADCQ (.reg DX) (.reg R8),
  -- p751/arith_amd64.s:1049
  ADCQ (.imm 0) (.reg R9),
  -- p751/arith_amd64.s:1051
  MOVQ (.mem SI 5) (.reg AX),
  -- p751/arith_amd64.s:1052
  MULQ (.reg R11),
  -- p751/arith_amd64.s:1053
  ADDQ (.reg AX) (.reg R8),
  -- p751/arith_amd64.s:1054
  MOVQ (.reg R8) (.mem CX 10),
  -- p751/arith_amd64.s:1055
  ADCQ (.reg DX) (.reg R9),
  -- p751/arith_amd64.s:1056
  MOVQ (.reg R9) (.mem CX 11),
  -- p751/arith_amd64.s:1059
  MOVQ (.mem DI 6) (.reg R11),
  -- p751/arith_amd64.s:1060
  MOVQ (.mem SI 6) (.reg AX),
  -- p751/arith_amd64.s:1061
  MULQ (.reg R11),
  -- p751/arith_amd64.s:1062
  XORQ (.reg R9) (.reg R9),
  -- p751/arith_amd64.s:1063
  MOVQ (.reg AX) (.mem CX 12),
  -- p751/arith_amd64.s:1064
  MOVQ (.reg DX) (.reg R8),
  -- p751/arith_amd64.s:1066
  MOVQ (.mem SI 7) (.reg AX),
  -- p751/arith_amd64.s:1067
  MULQ (.reg R11),
  -- p751/arith_amd64.s:1068
  XORQ (.reg R10) (.reg R10),
  -- p751/arith_amd64.s:1069
  ADDQ (.reg AX) (.reg R8),
  -- p751/arith_amd64.s:1070
  ADCQ (.reg DX) (.reg R9),
  -- p751/arith_amd64.s:1072
  MOVQ (.mem DI 7) (.reg R12),
  -- p751/arith_amd64.s:1073
  MOVQ (.mem SI 6) (.reg AX),
  -- p751/arith_amd64.s:1074
  MULQ (.reg R12),
  -- p751/arith_amd64.s:1075
  ADDQ (.reg AX) (.reg R8),
  -- p751/arith_amd64.s:1076
  MOVQ (.reg R8) (.mem CX 13),
  -- p751/arith_amd64.s:1077
  ADCQ (.reg DX) (.reg R9),
  -- p751/arith_amd64.s:1078
  ADCQ (.imm 0) (.reg R10),
  -- p751/arith_amd64.s:1080
  XORQ (.reg R8) (.reg R8),
  -- p751/arith_amd64.s:1081
  MOVQ (.mem SI 8) (.reg AX),
  -- p751/arith_amd64.s:1082
  MULQ (.reg R11),
  -- p751/arith_amd64.s:1083
  ADDQ (.reg AX) (.reg R9),
  -- p751/arith_amd64.s:1084
  ADCQ (.reg DX) (.reg R10),
  -- p751/arith_amd64.s:1085
  ADCQ (.imm 0) (.reg R8),
  -- p751/arith_amd64.s:1087
  MOVQ (.mem SI 6) (.reg R13),
  -- p751/arith_amd64.s:1088
  MOVQ (.mem DI 8) (.reg AX),
  -- p751/arith_amd64.s:1089
  MULQ (.reg R13),
  -- p751/arith_amd64.s:1090
  ADDQ (.reg AX) (.reg R9),
  -- p751/arith_amd64.s:1091
  ADCQ (.reg DX) (.reg R10),
  -- p751/arith_amd64.s:1092
  ADCQ (.imm 0) (.reg R8),
  -- p751/arith_amd64.s:1094
  MOVQ (.mem SI 7) (.reg AX),
  -- p751/arith_amd64.s:1095
  MULQ (.reg R12),
  -- p751/arith_amd64.s:1096
  ADDQ (.reg AX) (.reg R9),
  -- p751/arith_amd64.s:1097
  MOVQ (.reg R9) (.mem CX 14),
  -- p751/arith_amd64.s:1098
  ADCQ (.reg DX) (.reg R10),
  -- p751/arith_amd64.s:1099
  ADCQ (.imm 0) (.reg R8),
  -- p751/arith_amd64.s:1101
  XORQ (.reg R9) (.reg R9),
  -- p751/arith_amd64.s:1102
  MOVQ (.mem SI 9) (.reg AX),
  -- p751/arith_amd64.s:1103
  MULQ (.reg R11),
  -- p751/arith_amd64.s:1104
  ADDQ (.reg AX) (.reg R10),
  -- p751/arith_amd64.s:1105
  ADCQ (.reg DX) (.reg R8),
  -- p751/arith_amd64.s:1106
  ADCQ (.imm 0) (.reg R9),
  -- p751/arith_amd64.s:1108
  MOVQ (.mem DI 9) (.reg AX),
  -- p751/arith_amd64.s:1109
  MULQ (.reg R13),
  -- p751/arith_amd64.s:1110
  ADDQ (.reg AX) (.reg R10),
  -- p751/arith_amd64.s:1111
  ADCQ (.reg DX) (.reg R8),
  -- p751/arith_amd64.s:1112
  ADCQ (.imm 0) (.reg R9),
  -- p751/arith_amd64.s:1114
  MOVQ (.mem SI 8) (.reg AX),
  -- p751/arith_amd64.s:1115
  MULQ (.reg R12),
  -- p751/arith_amd64.s:1116
  ADDQ (.reg AX) (.reg R10),
  -- p751/arith_amd64.s:1117
  ADCQ (.reg DX) (.reg R8),
  -- p751/arith_amd64.s:1118
  ADCQ (.imm 0) (.reg R9),
  -- p751/arith_amd64.s:1120
  MOVQ (.mem DI 8) (.reg R14),
  -- p751/arith_amd64.s:1121
  MOVQ (.mem SI 7) (.reg AX),
  -- p751/arith_amd64.s:1122
  MULQ (.reg R14),
  -- p751/arith_amd64.s:1123
  ADDQ (.reg AX) (.reg R10),
  -- p751/arith_amd64.s:1124
  MOVQ (.reg R10) (.mem CX 15),
  -- p751/arith_amd64.s:1125
  ADCQ (.reg DX) (.reg R8),
  -- p751/arith_amd64.s:1126
  ADCQ (.imm 0) (.reg R9),
  -- p751/arith_amd64.s:1128
  XORQ (.reg R10) (.reg R10),
  -- p751/arith_amd64.s:1129
  MOVQ (.mem SI 10) (.reg AX),
  -- p751/arith_amd64.s:1130
  MULQ (.reg R11),
  -- p751/arith_amd64.s:1131
  ADDQ (.reg AX) (.reg R8),
  -- p751/arith_amd64.s:1132
  ADCQ (.reg DX) (.reg R9),
  -- p751/arith_amd64.s:1133
  ADCQ (.imm 0) (.reg R10),
  -- p751/arith_amd64.s:1135
  MOVQ (.mem SI 8) (.reg AX),
  -- p751/arith_amd64.s:1136
  MULQ (.reg R14),
  -- p751/arith_amd64.s:1137
  ADDQ (.reg AX) (.reg R8),
  -- p751/arith_amd64.s:1138
  ADCQ (.reg DX) (.reg R9),
  -- p751/arith_amd64.s:1139
  ADCQ (.imm 0) (.reg R10),
  -- p751/arith_amd64.s:1141
  MOVQ (.mem DI 10) (.reg R15),
  -- p751/arith_amd64.s:1142
  MOVQ (.reg R13) (.reg AX),
  -- p751/arith_amd64.s:1143
  MULQ (.reg R15),
  -- p751/arith_amd64.s:1144
  ADDQ (.reg AX) (.reg R8),
  -- p751/arith_amd64.s:1145
  ADCQ (.reg DX) (.reg R9),
  -- p751/arith_amd64.s:1146
  ADCQ (.imm 0) (.reg R10),
  -- p751/arith_amd64.s:1148
  MOVQ (.mem SI 9) (.reg AX),
  -- p751/arith_amd64.s:1149
  MULQ (.reg R12),
  -- p751/arith_amd64.s:1150
  ADDQ (.reg AX) (.reg R8),
  -- p751/arith_amd64.s:1151
  ADCQ (.reg DX) (.reg R9),
  -- p751/arith_amd64.s:1152
  ADCQ (.imm 0) (.reg R10),
  -- p751/arith_amd64.s:1154
  MOVQ (.mem DI 9) (.reg R13),
  -- p751/arith_amd64.s:1155
  MOVQ (.mem SI 7) (.reg AX),
  -- p751/arith_amd64.s:1156
  MULQ (.reg R13),
  -- p751/arith_amd64.s:1157
  ADDQ (.reg AX) (.reg R8),
  -- p751/arith_amd64.s:1158
  MOVQ (.reg R8) (.mem CX 16),
  -- p751/arith_amd64.s:1159
  ADCQ (.reg DX) (.reg R9),
  -- p751/arith_amd64.s:1160
  ADCQ (.imm 0) (.reg R10),
  -- p751/arith_amd64.s:1162
  XORQ (.reg R8) (.reg R8),
  -- p751/arith_amd64.s:1163
  MOVQ (.mem SI 11) (.reg AX),
  -- p751/arith_amd64.s:1164
  MULQ (.reg R11),
  -- p751/arith_amd64.s:1165
  ADDQ (.reg AX) (.reg R9),
  -- p751/arith_amd64.s:1166
  ADCQ (.reg DX) (.reg R10),
  -- p751/arith_amd64.s:1167
  ADCQ (.imm 0) (.reg R8),
  -- p751/arith_amd64.s:1169
  MOVQ (.mem SI 8) (.reg AX),
  -- p751/arith_amd64.s:1170
  MULQ (.reg R13),
  -- p751/arith_amd64.s:1171
  ADDQ (.reg AX) (.reg R9),
  -- p751/arith_amd64.s:1172
  ADCQ (.reg DX) (.reg R10),
  -- p751/arith_amd64.s:1173
  ADCQ (.imm 0) (.reg R8),
  -- p751/arith_amd64.s:1175
  MOVQ (.mem SI 9) (.reg AX),
  -- p751/arith_amd64.s:1176
  MULQ (.reg R14),
  -- p751/arith_amd64.s:1177
  ADDQ (.reg AX) (.reg R9),
  -- p751/arith_amd64.s:1178
  ADCQ (.reg DX) (.reg R10),
  -- p751/arith_amd64.s:1179
  ADCQ (.imm 0) (.reg R8),
  -- p751/arith_amd64.s:1181
  MOVQ (.mem DI 11) (.reg R11),
  -- p751/arith_amd64.s:1182
  MOVQ (.mem SI 6) (.reg AX),
  -- p751/arith_amd64.s:1183
  MULQ (.reg R11),
  -- p751/arith_amd64.s:1184
  ADDQ (.reg AX) (.reg R9),
  -- p751/arith_amd64.s:1185
  ADCQ (.reg DX) (.reg R10),
  -- p751/arith_amd64.s:1186
  ADCQ (.imm 0) (.reg R8),
  -- p751/arith_amd64.s:1188
  MOVQ (.mem SI 10) (.reg AX),
  -- p751/arith_amd64.s:1189
  MULQ (.reg R12),
  -- p751/arith_amd64.s:1190
  ADDQ (.reg AX) (.reg R9),
  -- p751/arith_amd64.s:1191
  ADCQ (.reg DX) (.reg R10),
  -- p751/arith_amd64.s:1192
  ADCQ (.imm 0) (.reg R8),
  -- p751/arith_amd64.s:1194
  MOVQ (.mem SI 7) (.reg AX),
  -- p751/arith_amd64.s:1195
  MULQ (.reg R15),
  -- p751/arith_amd64.s:1196
  ADDQ (.reg AX) (.reg R9),
  -- p751/arith_amd64.s:1197
  MOVQ (.reg R9) (.mem CX 17),
  -- p751/arith_amd64.s:1198
  ADCQ (.reg DX) (.reg R10),
  -- p751/arith_amd64.s:1199
  ADCQ (.imm 0) (.reg R8),
  -- p751/arith_amd64.s:1201
  XORQ (.reg R9) (.reg R9),
  -- p751/arith_amd64.s:1202
  MOVQ (.mem SI 8) (.reg AX),
  -- p751/arith_amd64.s:1203
  MULQ (.reg R15),
  -- p751/arith_amd64.s:1204
  ADDQ (.reg AX) (.reg R10),
  -- p751/arith_amd64.s:1205
  ADCQ (.reg DX) (.reg R8),
  -- p751/arith_amd64.s:1206
  ADCQ (.imm 0) (.reg R9),
  -- p751/arith_amd64.s:1208
  MOVQ (.mem SI 11) (.reg AX),
  -- p751/arith_amd64.s:1209
  MULQ (.reg R12),
  -- p751/arith_amd64.s:1210
  ADDQ (.reg AX) (.reg R10),
  -- p751/arith_amd64.s:1211
  ADCQ (.reg DX) (.reg R8),
  -- p751/arith_amd64.s:1212
  ADCQ (.imm 0) (.reg R9),
  -- p751/arith_amd64.s:1214
  MOVQ (.mem SI 10) (.reg AX),
  -- p751/arith_amd64.s:1215
  MULQ (.reg R14),
  -- p751/arith_amd64.s:1216
  ADDQ (.reg AX) (.reg R10),
  -- p751/arith_amd64.s:1217
  ADCQ (.reg DX) (.reg R8),
  -- p751/arith_amd64.s:1218
  ADCQ (.imm 0) (.reg R9),
  -- p751/arith_amd64.s:1220
  MOVQ (.mem SI 7) (.reg AX),
  -- p751/arith_amd64.s:1221
  MULQ (.reg R11),
  -- p751/arith_amd64.s:1222
  ADDQ (.reg AX) (.reg R10),
  -- p751/arith_amd64.s:1223
  ADCQ (.reg DX) (.reg R8),
  -- p751/arith_amd64.s:1224
  ADCQ (.imm 0) (.reg R9),
  -- p751/arith_amd64.s:1226
  MOVQ (.mem SI 9) (.reg AX),
  -- p751/arith_amd64.s:1227
  MULQ (.reg R13),
  -- p751/arith_amd64.s:1228
  ADDQ (.reg AX) (.reg R10),
  -- p751/arith_amd64.s:1229
  MOVQ (.reg R10) (.mem CX 18),
  -- p751/arith_amd64.s:1230
  ADCQ (.reg DX) (.reg R8),
  -- p751/arith_amd64.s:1231
  ADCQ (.imm 0) (.reg R9),
  -- p751/arith_amd64.s:1233
  XORQ (.reg R10) (.reg R10),
  -- p751/arith_amd64.s:1234
  MOVQ (.mem SI 11) (.reg AX),
  -- p751/arith_amd64.s:1235
  MULQ (.reg R14),
  -- p751/arith_amd64.s:1236
  ADDQ (.reg AX) (.reg R8),
  -- p751/arith_amd64.s:1237
  ADCQ (.reg DX) (.reg R9),
  -- p751/arith_amd64.s:1238
  ADCQ (.imm 0) (.reg R10),
  -- p751/arith_amd64.s:1240
  MOVQ (.mem SI 8) (.reg AX),
  -- p751/arith_amd64.s:1241
  MULQ (.reg R11),
  -- p751/arith_amd64.s:1242
  ADDQ (.reg AX) (.reg R8),
  -- p751/arith_amd64.s:1243
  ADCQ (.reg DX) (.reg R9),
  -- p751/arith_amd64.s:1244
  ADCQ (.imm 0) (.reg R10),
  -- p751/arith_amd64.s:1246
  MOVQ (.mem SI 10) (.reg AX),
  -- p751/arith_amd64.s:1247
  MULQ (.reg R13),
  -- p751/arith_amd64.s:1248
  ADDQ (.reg AX) (.reg R8),
  -- p751/arith_amd64.s:1249
  ADCQ (.reg DX) (.reg R9),
  -- p751/arith_amd64.s:1250
  ADCQ (.imm 0) (.reg R10),
  -- p751/arith_amd64.s:1252
  MOVQ (.mem SI 9) (.reg AX),
  -- p751/arith_amd64.s:1253
  MULQ (.reg R15),
  -- p751/arith_amd64.s:1254
  ADDQ (.reg AX) (.reg R8),
  -- p751/arith_amd64.s:1255
  MOVQ (.reg R8) (.mem CX 19),
  -- p751/arith_amd64.s:1256
  ADCQ (.reg DX) (.reg R9),
  -- p751/arith_amd64.s:1257
  ADCQ (.imm 0) (.reg R10),
  -- p751/arith_amd64.s:1259
  XORQ (.reg R8) (.reg R8),
  -- p751/arith_amd64.s:1260
  MOVQ (.mem SI 9) (.reg AX),
  -- p751/arith_amd64.s:1261
  MULQ (.reg R11),
  -- p751/arith_amd64.s:1262
  ADDQ (.reg AX) (.reg R9),
  -- p751/arith_amd64.s:1263
  ADCQ (.reg DX) (.reg R10),
  -- p751/arith_amd64.s:1264
  ADCQ (.imm 0) (.reg R8),
  -- p751/arith_amd64.s:1266
  MOVQ (.mem SI 10) (.reg AX),
  -- p751/arith_amd64.s:1267
  MULQ (.reg R15),
  -- p751/arith_amd64.s:1268
  ADDQ (.reg AX) (.reg R9),
  -- p751/arith_amd64.s:1269
  ADCQ (.reg DX) (.reg R10),
  -- p751/arith_amd64.s:1270
  ADCQ (.imm 0) (.reg R8),
  -- p751/arith_amd64.s:1272
  MOVQ (.mem SI 11) (.reg AX),
  -- p751/arith_amd64.s:1273
  MULQ (.reg R13),
  -- p751/arith_amd64.s:1274
  ADDQ (.reg AX) (.reg R9),
  -- p751/arith_amd64.s:1275
  MOVQ (.reg R9) (.mem CX 20),
  -- p751/arith_amd64.s:1276
  ADCQ (.reg DX) (.reg R10),
  -- p751/arith_amd64.s:1277
  ADCQ (.imm 0) (.reg R8),
  -- p751/arith_amd64.s:1279
  MOVQ (.mem SI 11) (.reg AX),
  -- p751/arith_amd64.s:1280
  MULQ (.reg R15),
  -- p751/arith_amd64.s:1281
  ADDQ (.reg AX) (.reg R10),
  -- p751/arith_amd64.s:1282
  ADCQ (.reg DX) (.reg R8),
  -- p751/arith_amd64.s:1284
  MOVQ (.mem SI 10) (.reg AX),
  -- p751/arith_amd64.s:1285
  MULQ (.reg R11),
  -- p751/arith_amd64.s:1286
  ADDQ (.reg AX) (.reg R10),
  -- p751/arith_amd64.s:1287
  MOVQ (.reg R10) (.mem CX 21),
  -- p751/arith_amd64.s:1288
  ADCQ (.reg DX) (.reg R8),
  -- p751/arith_amd64.s:1290
  MOVQ (.mem SI 11) (.reg AX),
  -- p751/arith_amd64.s:1291
  MULQ (.reg R11),
  -- p751/arith_amd64.s:1292
  ADDQ (.reg AX) (.reg R8),
  -- p751/arith_amd64.s:1293
  MOVQ (.reg R8) (.mem CX 22),
  -- p751/arith_amd64.s:1294
  ADCQ (.imm 0) (.reg DX),
  -- p751/arith_amd64.s:1295
  MOVQ (.reg DX) (.mem CX 23),
  -- p751/arith_amd64.s:1298
  MOVQ (.mem SP 0) (.reg R8),
  -- p751/arith_amd64.s:1299
  SUBQ (.mem CX 0) (.reg R8),
  -- p751/arith_amd64.s:1300
  MOVQ (.mem SP 1) (.reg R9),
  -- p751/arith_amd64.s:1301
  SBBQ (.mem CX 1) (.reg R9),
  -- p751/arith_amd64.s:1302
  MOVQ (.mem SP 2) (.reg R10),
  -- p751/arith_amd64.s:1303
  SBBQ (.mem CX 2) (.reg R10),
  -- p751/arith_amd64.s:1304
  MOVQ (.mem SP 3) (.reg R11),
  -- p751/arith_amd64.s:1305
  SBBQ (.mem CX 3) (.reg R11),
  -- p751/arith_amd64.s:1306
  MOVQ (.mem SP 4) (.reg R12),
  -- p751/arith_amd64.s:1307
  SBBQ (.mem CX 4) (.reg R12),
  -- p751/arith_amd64.s:1308
  MOVQ (.mem SP 5) (.reg R13),
  -- p751/arith_amd64.s:1309
  SBBQ (.mem CX 5) (.reg R13),
  -- p751/arith_amd64.s:1310
  MOVQ (.mem SP 6) (.reg R14),
  -- p751/arith_amd64.s:1311
  SBBQ (.mem CX 6) (.reg R14),
  -- p751/arith_amd64.s:1312
  MOVQ (.mem SP 7) (.reg R15),
  -- p751/arith_amd64.s:1313
  SBBQ (.mem CX 7) (.reg R15),
  -- p751/arith_amd64.s:1314
  MOVQ (.mem SP 8) (.reg AX),
  -- p751/arith_amd64.s:1315
  SBBQ (.mem CX 8) (.reg AX),
  -- p751/arith_amd64.s:1316
  MOVQ (.mem SP 9) (.reg DX),
  -- p751/arith_amd64.s:1317
  SBBQ (.mem CX 9) (.reg DX),
  -- p751/arith_amd64.s:1318
  MOVQ (.mem SP 10) (.reg DI),
  -- p751/arith_amd64.s:1319
  SBBQ (.mem CX 10) (.reg DI),
  -- p751/arith_amd64.s:1320
  MOVQ (.mem SP 11) (.reg SI),
  -- p751/arith_amd64.s:1321
  SBBQ (.mem CX 11) (.reg SI),
  -- p751/arith_amd64.s:1322
  MOVQ (.reg SI) (.mem SP 0),
  -- p751/arith_amd64.s:1325
  MOVQ (.mem CX 12) (.reg SI),
  -- p751/arith_amd64.s:1326
  SUBQ (.reg SI) (.reg R8),
  -- p751/arith_amd64.s:1327
  MOVQ (.mem CX 13) (.reg SI),
  -- p751/arith_amd64.s:1328
  SBBQ (.reg SI) (.reg R9),
  -- p751/arith_amd64.s:1329
  MOVQ (.mem CX 14) (.reg SI),
  -- p751/arith_amd64.s:1330
  SBBQ (.reg SI) (.reg R10),
  -- p751/arith_amd64.s:1331
  MOVQ (.mem CX 15) (.reg SI),
  -- p751/arith_amd64.s:1332
  SBBQ (.reg SI) (.reg R11),
  -- p751/arith_amd64.s:1333
  MOVQ (.mem CX 16) (.reg SI),
  -- p751/arith_amd64.s:1334
  SBBQ (.reg SI) (.reg R12),
  -- p751/arith_amd64.s:1335
  MOVQ (.mem CX 17) (.reg SI),
  -- p751/arith_amd64.s:1336
  SBBQ (.reg SI) (.reg R13),
  -- p751/arith_amd64.s:1337
  MOVQ (.mem CX 18) (.reg SI),
  -- p751/arith_amd64.s:1338
  SBBQ (.reg SI) (.reg R14),
  -- p751/arith_amd64.s:1339
  MOVQ (.mem CX 19) (.reg SI),
  -- p751/arith_amd64.s:1340
  SBBQ (.reg SI) (.reg R15),
  -- p751/arith_amd64.s:1341
  MOVQ (.mem CX 20) (.reg SI),
  -- p751/arith_amd64.s:1342
  SBBQ (.reg SI) (.reg AX),
  -- p751/arith_amd64.s:1343
  MOVQ (.mem CX 21) (.reg SI),
  -- p751/arith_amd64.s:1344
  SBBQ (.reg SI) (.reg DX),
  -- p751/arith_amd64.s:1345
  MOVQ (.mem CX 22) (.reg SI),
  -- p751/arith_amd64.s:1346
  SBBQ (.reg SI) (.reg DI),
  -- p751/arith_amd64.s:1347
  MOVQ (.mem SP 0) (.reg SI),
  -- p751/arith_amd64.s:1348
  SBBQ (.mem CX 23) (.reg SI),
  -- p751/arith_amd64.s:1351
  ADDQ (.mem CX 6) (.reg R8),
  -- p751/arith_amd64.s:1352
  MOVQ (.reg R8) (.mem CX 6),
  -- p751/arith_amd64.s:1353
  ADCQ (.mem CX 7) (.reg R9),
  -- p751/arith_amd64.s:1354
  MOVQ (.reg R9) (.mem CX 7),
  -- p751/arith_amd64.s:1355
  ADCQ (.mem CX 8) (.reg R10),
  -- p751/arith_amd64.s:1356
  MOVQ (.reg R10) (.mem CX 8),
  -- p751/arith_amd64.s:1357
  ADCQ (.mem CX 9) (.reg R11),
  -- p751/arith_amd64.s:1358
  MOVQ (.reg R11) (.mem CX 9),
  -- p751/arith_amd64.s:1359
  ADCQ (.mem CX 10) (.reg R12),
  -- p751/arith_amd64.s:1360
  MOVQ (.reg R12) (.mem CX 10),
  -- p751/arith_amd64.s:1361
  ADCQ (.mem CX 11) (.reg R13),
  -- p751/arith_amd64.s:1362
  MOVQ (.reg R13) (.mem CX 11),
  -- p751/arith_amd64.s:1363
  ADCQ (.mem CX 12) (.reg R14),
  -- p751/arith_amd64.s:1364
  MOVQ (.reg R14) (.mem CX 12),
  -- p751/arith_amd64.s:1365
  ADCQ (.mem CX 13) (.reg R15),
  -- p751/arith_amd64.s:1366
  MOVQ (.reg R15) (.mem CX 13),
  -- p751/arith_amd64.s:1367
  ADCQ (.mem CX 14) (.reg AX),
  -- p751/arith_amd64.s:1368
  MOVQ (.reg AX) (.mem CX 14),
  -- p751/arith_amd64.s:1369
  ADCQ (.mem CX 15) (.reg DX),
  -- p751/arith_amd64.s:1370
  MOVQ (.reg DX) (.mem CX 15),
  -- p751/arith_amd64.s:1371
  ADCQ (.mem CX 16) (.reg DI),
  -- p751/arith_amd64.s:1372
  MOVQ (.reg DI) (.mem CX 16),
  -- p751/arith_amd64.s:1373
  ADCQ (.mem CX 17) (.reg SI),
  -- p751/arith_amd64.s:1374
  MOVQ (.reg SI) (.mem CX 17),
  -- p751/arith_amd64.s:1375
  MOVQ (.mem CX 18) (.reg AX),
  -- p751/arith_amd64.s:1376
  ADCQ (.imm 0) (.reg AX),
  -- p751/arith_amd64.s:1377
  MOVQ (.reg AX) (.mem CX 18),
  -- p751/arith_amd64.s:1378
  MOVQ (.mem CX 19) (.reg AX),
  -- p751/arith_amd64.s:1379
  ADCQ (.imm 0) (.reg AX),
  -- p751/arith_amd64.s:1380
  MOVQ (.reg AX) (.mem CX 19),
  -- p751/arith_amd64.s:1381
  MOVQ (.mem CX 20) (.reg AX),
  -- p751/arith_amd64.s:1382
  ADCQ (.imm 0) (.reg AX),
  -- p751/arith_amd64.s:1383
  MOVQ (.reg AX) (.mem CX 20),
  -- p751/arith_amd64.s:1384
  MOVQ (.mem CX 21) (.reg AX),
  -- p751/arith_amd64.s:1385
  ADCQ (.imm 0) (.reg AX),
  -- p751/arith_amd64.s:1386
  MOVQ (.reg AX) (.mem CX 21),
  -- p751/arith_amd64.s:1387
  MOVQ (.mem CX 22) (.reg AX),
  -- p751/arith_amd64.s:1388
  ADCQ (.imm 0) (.reg AX),
  -- p751/arith_amd64.s:1389
  MOVQ (.reg AX) (.mem CX 22),
  -- p751/arith_amd64.s:1390
  MOVQ (.mem CX 23) (.reg AX),
  -- p751/arith_amd64.s:1391
  ADCQ (.imm 0) (.reg AX),
  -- p751/arith_amd64.s:1392
  MOVQ (.reg AX) (.mem CX 23)
  ]

def mul : Routine := { code := mulCode, frame := 12, glob := [] }

/-- p751/arith_amd64.s:1739-2362 `rdcP751` -/
def rdcCode : List Instr := [
  -- p751/arith_amd64.s:1739
  MOVQ (.mem FP 0) (.reg SI),
  -- p751/arith_amd64.s:1740
  MOVQ (.mem FP 1) (.reg DI),
  -- p751/arith_amd64.s:1748
  MOVQ (.mem DI 0) (.reg R11),
  -- p751/arith_amd64.s:1749
  MOVQ (.imm 0xeeb0000000000000) (.reg AX),
  -- p751/arith_amd64.s:1750
  MULQ (.reg R11),
  -- p751/arith_amd64.s:1751
  XORQ (.reg R8) (.reg R8),
  -- p751/arith_amd64.s:1752
  ADDQ (.mem DI 5) (.reg AX),
  -- p751/arith_amd64.s:1753
  MOVQ (.reg AX) (.mem SI 5),
  -- p751/arith_amd64.s:1754
  ADCQ (.reg DX) (.reg R8),
  -- p751/arith_amd64.s:1756
  XORQ (.reg R9) (.reg R9),
  -- p751/arith_amd64.s:1757
  MOVQ (.imm 0xe3ec968549f878a8) (.reg AX),
  -- p751/arith_amd64.s:1758
  MULQ (.reg R11),
  -- p751/arith_amd64.s:1759
  XORQ (.reg R10) (.reg R10),
  -- p751/arith_amd64.s:1760
  ADDQ (.reg AX) (.reg R8),
  -- p751/arith_amd64.s:1761
  ADCQ (.reg DX) (.reg R9),
  -- p751/arith_amd64.s:1763
  MOVQ (.mem DI 1) (.reg R12),
  -- p751/arith_amd64.s:1764
  MOVQ (.imm 0xeeb0000000000000) (.reg AX),
  -- p751/arith_amd64.s:1765
  MULQ (.reg R12),
  -- p751/arith_amd64.s:1766
  ADDQ (.reg AX) (.reg R8),
  -- p751/arith_amd64.s:1767
  ADCQ (.reg DX) (.reg R9),
  -- p751/arith_amd64.s:1768
  ADCQ (.imm 0) (.reg R10),
  -- p751/arith_amd64.s:1769
  ADDQ (.mem DI 6) (.reg R8),
  -- p751/arith_amd64.s:1770
  MOVQ (.reg R8) (.mem SI 6),
  -- p751/arith_amd64.s:1771
  ADCQ (.imm 0) (.reg R9),
  -- p751/arith_amd64.s:1772
  ADCQ (.imm 0) (.reg R10),
  -- p751/arith_amd64.s:1774
  XORQ (.reg R8) (.reg R8),
  -- p751/arith_amd64.s:1775
  MOVQ (.imm 0xda959b1a13f7cc76) (.reg AX),
  -- p751/arith_amd64.s:1776
  MULQ (.reg R11),
  -- p751/arith_amd64.s:1777
  ADDQ (.reg AX) (.reg R9),
  -- p751/arith_amd64.s:1778
  ADCQ (.reg DX) (.reg R10),
  -- p751/arith_amd64.s:1779
  ADCQ (.imm 0) (.reg R8),
  -- p751/arith_amd64.s:1781
  MOVQ (.imm 0xe3ec968549f878a8) (.reg AX),
  -- p751/arith_amd64.s:1782
  MULQ (.reg R12),
  -- p751/arith_amd64.s:1783
  ADDQ (.reg AX) (.reg R9),
  -- p751/arith_amd64.s:1784
  ADCQ (.reg DX) (.reg R10),
  -- p751/arith_amd64.s:1785
  ADCQ (.imm 0) (.reg R8),
  -- p751/arith_amd64.s:1787
  MOVQ (.mem DI 2) (.reg R13),
  -- p751/arith_amd64.s:1788
  MOVQ (.imm 0xeeb0000000000000) (.reg AX),
  -- p751/arith_amd64.s:1789
  MULQ (.reg R13),
  -- p751/arith_amd64.s:1790
  ADDQ (.reg AX) (.reg R9),
  -- p751/arith_amd64.s:1791
  ADCQ (.reg DX) (.reg R10),
  -- p751/arith_amd64.s:1792
  ADCQ (.imm 0) (.reg R8),
  -- p751/arith_amd64.s:1793
  ADDQ (.mem DI 7) (.reg R9),
  -- p751/arith_amd64.s:1794
  MOVQ (.reg R9) (.mem SI 7),
  -- p751/arith_amd64.s:1795
  ADCQ (.imm 0) (.reg R10),
  -- p751/arith_amd64.s:1796
  ADCQ (.imm 0) (.reg R8),
  -- p751/arith_amd64.s:1798
  XORQ (.reg R9) (.reg R9),
  -- p751/arith_amd64.s:1799
  MOVQ (.imm 0x84e9867d6ebe876) (.reg AX),
  -- p751/arith_amd64.s:1800
  MULQ (.reg R11),
  -- p751/arith_amd64.s:1801
  ADDQ (.reg AX) (.reg R10),
  -- p751/arith_amd64.s:1802
  ADCQ (.reg DX) (.reg R8),
  -- p751/arith_amd64.s:1803
  ADCQ (.imm 0) (.reg R9),
  -- p751/arith_amd64.s:1805
  MOVQ (.imm 0xda959b1a13f7cc76) (.reg AX),
  -- p751/arith_amd64.s:1806
  MULQ (.reg R12),
  -- p751/arith_amd64.s:1807
  ADDQ (.reg AX) (.reg R10),
  -- p751/arith_amd64.s:1808
  ADCQ (.reg DX) (.reg R8),
  -- p751/arith_amd64.s:1809
  ADCQ (.imm 0) (.reg R9),
  -- p751/arith_amd64.s:1811
  MOVQ (.imm 0xe3ec968549f878a8) (.reg AX),
  -- p751/arith_amd64.s:1812
  MULQ (.reg R13),
  -- p751/arith_amd64.s:1813
  ADDQ (.reg AX) (.reg R10),
  -- p751/arith_amd64.s:1814
  ADCQ (.reg DX) (.reg R8),
  -- p751/arith_amd64.s:1815
  ADCQ (.imm 0) (.reg R9),
  -- p751/arith_amd64.s:1817
  MOVQ (.mem DI 3) (.reg R14),
  -- p751/arith_amd64.s:1818
  MOVQ (.imm 0xeeb0000000000000) (.reg AX),
  -- p751/arith_amd64.s:1819
  MULQ (.reg R14),
  -- p751/arith_amd64.s:1820
  ADDQ (.reg AX) (.reg R10),
  -- p751/arith_amd64.s:1821
  ADCQ (.reg DX) (.reg R8),
  -- p751/arith_amd64.s:1822
  ADCQ (.imm 0) (.reg R9),
  -- p751/arith_amd64.s:1823
  ADDQ (.mem DI 8) (.reg R10),
  -- p751/arith_amd64.s:1824
  MOVQ (.reg R10) (.mem SI 8),
  -- p751/arith_amd64.s:1825
  ADCQ (.imm 0) (.reg R8),
  -- p751/arith_amd64.s:1826
  ADCQ (.imm 0) (.reg R9),
  -- p751/arith_amd64.s:1828
  XORQ (.reg R10) (.reg R10),
  -- p751/arith_amd64.s:1829
  MOVQ (.imm 0x8562b5045cb25748) (.reg AX),
  -- p751/arith_amd64.s:1830
  MULQ (.reg R11),
  -- p751/arith_amd64.s:1831
  ADDQ (.reg AX) (.reg R8),
  -- p751/arith_amd64.s:1832
  ADCQ (.reg DX) (.reg R9),
  -- p751/arith_amd64.s:1833
  ADCQ (.imm 0) (.reg R10),
  -- p751/arith_amd64.s:1835
  MOVQ (.imm 0x84e9867d6ebe876) (.reg AX),
  -- p751/arith_amd64.s:1836
  MULQ (.reg R12),
  -- p751/arith_amd64.s:1837
  ADDQ (.reg AX) (.reg R8),
  -- p751/arith_amd64.s:1838
  ADCQ (.reg DX) (.reg R9),
  -- p751/arith_amd64.s:1839
  ADCQ (.imm 0) (.reg R10),
  -- p751/arith_amd64.s:1841
  MOVQ (.imm 0xda959b1a13f7cc76) (.reg AX),
  -- p751/arith_amd64.s:1842
  MULQ (.reg R13),
  -- p751/arith_amd64.s:1843
  ADDQ (.reg AX) (.reg R8),
  -- p751/arith_amd64.s:1844
  ADCQ (.reg DX) (.reg R9),
  -- p751/arith_amd64.s:1845
  ADCQ (.imm 0) (.reg R10),
  -- p751/arith_amd64.s:1847
  MOVQ (.imm 0xe3ec968549f878a8) (.reg AX),
  -- p751/arith_amd64.s:1848
  MULQ (.reg R14),
  -- p751/arith_amd64.s:1849
  ADDQ (.reg AX) (.reg R8),
  -- p751/arith_amd64.s:1850
  ADCQ (.reg DX) (.reg R9),
  -- p751/arith_amd64.s:1851
  ADCQ (.imm 0) (.reg R10),
  -- p751/arith_amd64.s:1853
  MOVQ (.mem DI 4) (.reg R15),
  -- p751/arith_amd64.s:1854
  MOVQ (.imm 0xeeb0000000000000) (.reg AX),
  -- p751/arith_amd64.s:1855
  MULQ (.reg R15),
  -- p751/arith_amd64.s:1856
  ADDQ (.reg AX) (.reg R8),
  -- p751/arith_amd64.s:1857
  ADCQ (.reg DX) (.reg R9),
  -- p751/arith_amd64.s:1858
  ADCQ (.imm 0) (.reg R10),
  -- p751/arith_amd64.s:1859
  ADDQ (.mem DI 9) (.reg R8),
  -- p751/arith_amd64.s:1860
  MOVQ (.reg R8) (.mem SI 9),
  -- p751/arith_amd64.s:1861
  ADCQ (.imm 0) (.reg R9),
  -- p751/arith_amd64.s:1862
  ADCQ (.imm 0) (.reg R10),
  -- p751/arith_amd64.s:1864
  XORQ (.reg R8) (.reg R8),
  -- p751/arith_amd64.s:1865
  MOVQ (.imm 0xe12909f97badc66) (.reg AX),
  -- p751/arith_amd64.s:1866
  MULQ (.reg R11),
  -- p751/arith_amd64.s:1867
  ADDQ (.reg AX) (.reg R9),
  -- p751/arith_amd64.s:1868
  ADCQ (.reg DX) (.reg R10),
  -- p751/arith_amd64.s:1869
  ADCQ (.imm 0) (.reg R8),
  -- p751/arith_amd64.s:1871
  MOVQ (.imm 0x8562b5045cb25748) (.reg AX),
  -- p751/arith_amd64.s:1872
  MULQ (.reg R12),
  -- p751/arith_amd64.s:1873
  ADDQ (.reg AX) (.reg R9),
  -- p751/arith_amd64.s:1874
  ADCQ (.reg DX) (.reg R10),
  -- p751/arith_amd64.s:1875
  ADCQ (.imm 0) (.reg R8),
  -- p751/arith_amd64.s:1877
  MOVQ (.imm 0x84e9867d6ebe876) (.reg AX),
  -- p751/arith_amd64.s:1878
  MULQ (.reg R13),
  -- p751/arith_amd64.s:1879
  ADDQ (.reg AX) (.reg R9),
  -- p751/arith_amd64.s:1880
  ADCQ (.reg DX) (.reg R10),
  -- p751/arith_amd64.s:1881
  ADCQ (.imm 0) (.reg R8),
  -- p751/arith_amd64.s:1883
  MOVQ (.imm 0xda959b1a13f7cc76) (.reg AX),
  -- p751/arith_amd64.s:1884
  MULQ (.reg R14),
  -- p751/arith_amd64.s:1885
  ADDQ (.reg AX) (.reg R9),
  -- p751/arith_amd64.s:1886
  ADCQ (.reg DX) (.reg R10),
  -- p751/arith_amd64.s:1887
  ADCQ (.imm 0) (.reg R8),
  -- p751/arith_amd64.s:1889
  MOVQ (.imm 0xe3ec968549f878a8) (.reg AX),
  -- p751/arith_amd64.s:1890
  MULQ (.reg R15),
  -- p751/arith_amd64.s:1891
  ADDQ (.reg AX) (.reg R9),
  -- p751/arith_amd64.s:1892
  ADCQ (.reg DX) (.reg R10),
  -- p751/arith_amd64.s:1893
  ADCQ (.imm 0) (.reg R8),
  -- p751/arith_amd64.s:1895
  MOVQ (.mem SI 5) (.reg CX),
  -- p751/arith_amd64.s:1896
  MOVQ (.imm 0xeeb0000000000000) (.reg AX),
  -- p751/arith_amd64.s:1897
  MULQ (.reg CX),
  -- p751/arith_amd64.s:1898
  ADDQ (.reg AX) (.reg R9),
  -- p751/arith_amd64.s:1899
  ADCQ (.reg DX) (.reg R10),
  -- p751/arith_amd64.s:1900
  ADCQ (.imm 0) (.reg R8),
  -- p751/arith_amd64.s:1901
  ADDQ (.mem DI 10) (.reg R9),
  -- p751/arith_amd64.s:1902
  MOVQ (.reg R9) (.mem SI 10),
  -- p751/arith_amd64.s:1903
  ADCQ (.imm 0) (.reg R10),
  -- p751/arith_amd64.s:1904
  ADCQ (.imm 0) (.reg R8),
  -- p751/arith_amd64.s:1906
  XORQ (.reg R9) (.reg R9),
  -- p751/arith_amd64.s:1907
  MOVQ (.imm 0x6fe5d541f71c) (.reg AX),
  -- p751/arith_amd64.s:1908
  MULQ (.reg R11),
  -- p751/arith_amd64.s:1909
  ADDQ (.reg AX) (.reg R10),
  -- p751/arith_amd64.s:1910
  ADCQ (.reg DX) (.reg R8),
  -- p751/arith_amd64.s:1911
  ADCQ (.imm 0) (.reg R9),
  -- p751/arith_amd64.s:1913
  MOVQ (.imm 0xe12909f97badc66) (.reg AX),
  -- p751/arith_amd64.s:1914
  MULQ (.reg R12),
  -- p751/arith_amd64.s:1915
  ADDQ (.reg AX) (.reg R10),
  -- p751/arith_amd64.s:1916
  ADCQ (.reg DX) (.reg R8),
  -- p751/arith_amd64.s:1917
  ADCQ (.imm 0) (.reg R9),
  -- p751/arith_amd64.s:1919
  MOVQ (.imm 0x8562b5045cb25748) (.reg AX),
  -- p751/arith_amd64.s:1920
  MULQ (.reg R13),
  -- p751/arith_amd64.s:1921
  ADDQ (.reg AX) (.reg R10),
  -- p751/arith_amd64.s:1922
  ADCQ (.reg DX) (.reg R8),
  -- p751/arith_amd64.s:1923
  ADCQ (.imm 0) (.reg R9),
  -- p751/arith_amd64.s:1925
  MOVQ (.imm 0x84e9867d6ebe876) (.reg AX),
  -- p751/arith_amd64.s:1926
  MULQ (.reg R14),
  -- p751/arith_amd64.s:1927
  ADDQ (.reg AX) (.reg R10),
  -- p751/arith_amd64.s:1928
  ADCQ (.reg DX) (.reg R8),
  -- p751/arith_amd64.s:1929
  ADCQ (.imm 0) (.reg R9),
  -- p751/arith_amd64.s:1931
  MOVQ (.imm 0xda959b1a13f7cc76) (.reg AX),
  -- p751/arith_amd64.s:1932
  MULQ (.reg R15),
  -- p751/arith_amd64.s:1933
  ADDQ (.reg AX) (.reg R10),
  -- p751/arith_amd64.s:1934
  ADCQ (.reg DX) (.reg R8),
  -- p751/arith_amd64.s:1935
  ADCQ (.imm 0) (.reg R9),
  -- p751/arith_amd64.s:1937
  MOVQ (.imm 0xe3ec968549f878a8) (.reg AX),
  -- p751/arith_amd64.s:1938
  MULQ (.reg CX),
  -- p751/arith_amd64.s:1939
  ADDQ (.reg AX) (.reg R10),
  -- p751/arith_amd64.s:1940
  ADCQ (.reg DX) (.reg R8),
  -- p751/arith_amd64.s:1941
  ADCQ (.imm 0) (.reg R9),
  -- p751/arith_amd64.s:1943
  MOVQ (.mem SI 6) (.reg R11),
  -- p751/arith_amd64.s:1944
  MOVQ (.imm 0xeeb0000000000000) (.reg AX),
  -- p751/arith_amd64.s:1945
  MULQ (.reg R11),
  -- p751/arith_amd64.s:1946
  ADDQ (.reg AX) (.reg R10),
  -- p751/arith_amd64.s:1947
  ADCQ (.reg DX) (.reg R8),
  -- p751/arith_amd64.s:1948
  ADCQ (.imm 0) (.reg R9),
  -- p751/arith_amd64.s:1949
  ADDQ (.mem DI 11) (.reg R10),
  -- p751/arith_amd64.s:1950
  MOVQ (.reg R10) (.mem SI 11),
  -- p751/arith_amd64.s:1951
  ADCQ (.imm 0) (.reg R8),
  -- p751/arith_amd64.s:1952
  ADCQ (.imm 0) (.reg R9),
  -- p751/arith_amd64.s:1954
  XORQ (.reg R10) (.reg R10),
  -- p751/arith_amd64.s:1955
  MOVQ (.imm 0x6fe5d541f71c) (.reg AX),
  -- p751/arith_amd64.s:1956
  MULQ (.reg R12),
  -- p751/arith_amd64.s:1957
  ADDQ (.reg AX) (.reg R8),
  -- p751/arith_amd64.s:1958
  ADCQ (.reg DX) (.reg R9),
  -- p751/arith_amd64.s:1959
  ADCQ (.imm 0) (.reg R10),
  -- p751/arith_amd64.s:1961
  MOVQ (.imm 0xe12909f97badc66) (.reg AX),
  -- p751/arith_amd64.s:1962
  MULQ (.reg R13),
  -- p751/arith_amd64.s:1963
  ADDQ (.reg AX) (.reg R8),
  -- p751/arith_amd64.s:1964
  ADCQ (.reg DX) (.reg R9),
  -- p751/arith_amd64.s:1965
  ADCQ (.imm 0) (.reg R10),
  -- p751/arith_amd64.s:1967
  MOVQ (.imm 0x8562b5045cb25748) (.reg AX),
  -- p751/arith_amd64.s:1968
  MULQ (.reg R14),
  -- p751/arith_amd64.s:1969
  ADDQ (.reg AX) (.reg R8),
  -- p751/arith_amd64.s:1970
  ADCQ (.reg DX) (.reg R9),
  -- p751/arith_amd64.s:1971
  ADCQ (.imm 0) (.reg R10),
  -- p751/arith_amd64.s:1973
  MOVQ (.imm 0x84e9867d6ebe876) (.reg AX),
  -- p751/arith_amd64.s:1974
  MULQ (.reg R15),
  -- p751/arith_amd64.s:1975
  ADDQ (.reg AX) (.reg R8),
  -- p751/arith_amd64.s:1976
  ADCQ (.reg DX) (.reg R9),
  -- p751/arith_amd64.s:1977
  ADCQ (.imm 0) (.reg R10),
  -- p751/arith_amd64.s:1979
  MOVQ (.imm 0xda959b1a13f7cc76) (.reg AX),
  -- p751/arith_amd64.s:1980
  MULQ (.reg CX),
  -- p751/arith_amd64.s:1981
  ADDQ (.reg AX) (.reg R8),
  -- p751/arith_amd64.s:1982
  ADCQ (.reg DX) (.reg R9),
  -- p751/arith_amd64.s:1983
  ADCQ (.imm 0) (.reg R10),
  -- p751/arith_amd64.s:1985
  MOVQ (.imm 0xe3ec968549f878a8) (.reg AX),
  -- p751/arith_amd64.s:1986
  MULQ (.reg R11),
  -- p751/arith_amd64.s:1987
  ADDQ (.reg AX) (.reg R8),
  -- p751/arith_amd64.s:1988
  ADCQ (.reg DX) (.reg R9),
  -- p751/arith_amd64.s:1989
  ADCQ (.imm 0) (.reg R10),
  -- p751/arith_amd64.s:1991
  MOVQ (.mem SI 7) (.reg R12),
  -- p751/arith_amd64.s:1992
  MOVQ (.imm 0xeeb0000000000000) (.reg AX),
  -- p751/arith_amd64.s:1993
  MULQ (.reg R12),
  -- p751/arith_amd64.s:1994
  ADDQ (.reg AX) (.reg R8),
  -- p751/arith_amd64.s:1995
  ADCQ (.reg DX) (.reg R9),
  -- p751/arith_amd64.s:1996
  ADCQ (.imm 0) (.reg R10),
  -- p751/arith_amd64.s:1997
  ADDQ (.mem DI 12) (.reg R8),
  -- p751/arith_amd64.s:1998
  MOVQ (.reg R8) (.mem SI 0),
  -- p751/arith_amd64.s:1999
  ADCQ (.imm 0) (.reg R9),
  -- p751/arith_amd64.s:2000
  ADCQ (.imm 0) (.reg R10),
  -- p751/arith_amd64.s:2002
  XORQ (.reg R8) (.reg R8),
  -- p751/arith_amd64.s:2003
  MOVQ (.imm 0x6fe5d541f71c) (.reg AX),
  -- p751/arith_amd64.s:2004
  MULQ (.reg R13),
  -- p751/arith_amd64.s:2005
  ADDQ (.reg AX) (.reg R9),
  -- p751/arith_amd64.s:2006
  ADCQ (.reg DX) (.reg R10),
  -- p751/arith_amd64.s:2007
  ADCQ (.imm 0) (.reg R8),
  -- p751/arith_amd64.s:2009
  MOVQ (.imm 0xe12909f97badc66) (.reg AX),
  -- p751/arith_amd64.s:2010
  MULQ (.reg R14),
  -- p751/arith_amd64.s:2011
  ADDQ (.reg AX) (.reg R9),
  -- p751/arith_amd64.s:2012
  ADCQ (.reg DX) (.reg R10),
  -- p751/arith_amd64.s:2013
  ADCQ (.imm 0) (.reg R8),
  -- p751/arith_amd64.s:2015
  MOVQ (.imm 0x8562b5045cb25748) (.reg AX),
  -- p751/arith_amd64.s:2016
  MULQ (.reg R15),
  -- p751/arith_amd64.s:2017
  ADDQ (.reg AX) (.reg R9),
  -- p751/arith_amd64.s:2018
  ADCQ (.reg DX) (.reg R10),
  -- p751/arith_amd64.s:2019
  ADCQ (.imm 0) (.reg R8),
  -- p751/arith_amd64.s:2021
  MOVQ (.imm 0x84e9867d6ebe876) (.reg AX),
  -- p751/arith_amd64.s:2022
  MULQ (.reg CX),
  -- p751/arith_amd64.s:2023
  ADDQ (.reg AX) (.reg R9),
  -- p751/arith_amd64.s:2024
  ADCQ (.reg DX) (.reg R10),
  -- p751/arith_amd64.s:2025
  ADCQ (.imm 0) (.reg R8),
  -- p751/arith_amd64.s:2027
  MOVQ (.imm 0xda959b1a13f7cc76) (.reg AX),
  -- p751/arith_amd64.s:2028
  MULQ (.reg R11),
  -- p751/arith_amd64.s:2029
  ADDQ (.reg AX) (.reg R9),
  -- p751/arith_amd64.s:2030
  ADCQ (.reg DX) (.reg R10),
  -- p751/arith_amd64.s:2031
  ADCQ (.imm 0) (.reg R8),
  -- p751/arith_amd64.s:2033
  MOVQ (.imm 0xe3ec968549f878a8) (.reg AX),
  -- p751/arith_amd64.s:2034
  MULQ (.reg R12),
  -- p751/arith_amd64.s:2035
  ADDQ (.reg AX) (.reg R9),
  -- p751/arith_amd64.s:2036
  ADCQ (.reg DX) (.reg R10),
  -- p751/arith_amd64.s:2037
  ADCQ (.imm 0) (.reg R8),
  -- p751/arith_amd64.s:2039
  MOVQ (.mem SI 8) (.reg R13),
  -- p751/arith_amd64.s:2040
  MOVQ (.imm 0xeeb0000000000000) (.reg AX),
  -- p751/arith_amd64.s:2041
  MULQ (.reg R13),
  -- p751/arith_amd64.s:2042
  ADDQ (.reg AX) (.reg R9),
  -- p751/arith_amd64.s:2043
  ADCQ (.reg DX) (.reg R10),
  -- p751/arith_amd64.s:2044
  ADCQ (.imm 0) (.reg R8),
  -- p751/arith_amd64.s:2045
  ADDQ (.mem DI 13) (.reg R9),
  -- p751/arith_amd64.s:2046
  MOVQ (.reg R9) (.mem SI 1),
  -- p751/arith_amd64.s:2047
  ADCQ (.imm 0) (.reg R10),
  -- p751/arith_amd64.s:2048
  ADCQ (.imm 0) (.reg R8),
  -- p751/arith_amd64.s:2050
  XORQ (.reg R9) (.reg R9),
  -- p751/arith_amd64.s:2051
  MOVQ (.imm 0x6fe5d541f71c) (.reg AX),
  -- p751/arith_amd64.s:2052
  MULQ (.reg R14),
  -- p751/arith_amd64.s:2053
  ADDQ (.reg AX) (.reg R10),
  -- p751/arith_amd64.s:2054
  ADCQ (.reg DX) (.reg R8),
  -- p751/arith_amd64.s:2055
  ADCQ (.imm 0) (.reg R9),
  -- p751/arith_amd64.s:2057
  MOVQ (.imm 0xe12909f97badc66) (.reg AX),
  -- p751/arith_amd64.s:2058
  MULQ (.reg R15),
  -- p751/arith_amd64.s:2059
  ADDQ (.reg AX) (.reg R10),
  -- p751/arith_amd64.s:2060
  ADCQ (.reg DX) (.reg R8),
  -- p751/arith_amd64.s:2061
  ADCQ (.imm 0) (.reg R9),
  -- p751/arith_amd64.s:2063
  MOVQ (.imm 0x8562b5045cb25748) (.reg AX),
  -- p751/arith_amd64.s:2064
  MULQ (.reg CX),
  -- p751/arith_amd64.s:2065
  ADDQ (.reg AX) (.reg R10),
  -- p751/arith_amd64.s:2066
  ADCQ (.reg DX) (.reg R8),
  -- p751/arith_amd64.s:2067
  ADCQ (.imm 0) (.reg R9),
  -- p751/arith_amd64.s:2069
  MOVQ (.imm 0x84e9867d6ebe876) (.reg AX),
  -- p751/arith_amd64.s:2070
  MULQ (.reg R11),
  -- p751/arith_amd64.s:2071
  ADDQ (.reg AX) (.reg R10),
  -- p751/arith_amd64.s:2072
  ADCQ (.reg DX) (.reg R8),
  -- p751/arith_amd64.s:2073
  ADCQ (.imm 0) (.reg R9),
  -- p751/arith_amd64.s:2075
  MOVQ (.imm 0xda959b1a13f7cc76) (.reg AX),
  -- p751/arith_amd64.s:2076
  MULQ (.reg R12),
  -- p751/arith_amd64.s:2077
  ADDQ (.reg AX) (.reg R10),
  -- p751/arith_amd64.s:2078
  ADCQ (.reg DX) (.reg R8),
  -- p751/arith_amd64.s:2079
  ADCQ (.imm 0) (.reg R9),
  -- p751/arith_amd64.s:2081
  MOVQ (.imm 0xe3ec968549f878a8) (.reg AX),
  -- p751/arith_amd64.s:2082
  MULQ (.reg R13),
  -- p751/arith_amd64.s:2083
  ADDQ (.reg AX) (.reg R10),
  -- p751/arith_amd64.s:2084
  ADCQ (.reg DX) (.reg R8),
  -- p751/arith_amd64.s:2085
  ADCQ (.imm 0) (.reg R9),
  -- p751/arith_amd64.s:2087
  MOVQ (.mem SI 9) (.reg R14),
  -- p751/arith_amd64.s:2088
  MOVQ (.imm 0xeeb0000000000000) (.reg AX),
  -- p751/arith_amd64.s:2089
  MULQ (.reg R14),
  -- p751/arith_amd64.s:2090
  ADDQ (.reg AX) (.reg R10),
  -- p751/arith_amd64.s:2091
  ADCQ (.reg DX) (.reg R8),
  -- p751/arith_amd64.s:2092
  ADCQ (.imm 0) (.reg R9),
  -- p751/arith_amd64.s:2093
  ADDQ (.mem DI 14) (.reg R10),
  -- p751/arith_amd64.s:2094
  MOVQ (.reg R10) (.mem SI 2),
  -- p751/arith_amd64.s:2095
  ADCQ (.imm 0) (.reg R8),
  -- p751/arith_amd64.s:2096
  ADCQ (.imm 0) (.reg R9),
  -- p751/arith_amd64.s:2098
  XORQ (.reg R10) (.reg R10),
  -- p751/arith_amd64.s:2099
  MOVQ (.imm 0x6fe5d541f71c) (.reg AX),
  -- p751/arith_amd64.s:2100
  MULQ (.reg R15),
  -- p751/arith_amd64.s:2101
  ADDQ (.reg AX) (.reg R8),
  -- p751/arith_amd64.s:2102
  ADCQ (.reg DX) (.reg R9),
  -- p751/arith_amd64.s:2103
  ADCQ (.imm 0) (.reg R10),
  -- p751/arith_amd64.s:2105
  MOVQ (.imm 0xe12909f97badc66) (.reg AX),
  -- p751/arith_amd64.s:2106
  MULQ (.reg CX),
  -- p751/arith_amd64.s:2107
  ADDQ (.reg AX) (.reg R8),
  -- p751/arith_amd64.s:2108
  ADCQ (.reg DX) (.reg R9),
  -- p751/arith_amd64.s:2109
  ADCQ (.imm 0) (.reg R10),
  -- p751/arith_amd64.s:2111
  MOVQ (.imm 0x8562b5045cb25748) (.reg AX),
  -- p751/arith_amd64.s:2112
  MULQ (.reg R11),
  -- p751/arith_amd64.s:2113
  ADDQ (.reg AX) (.reg R8),
  -- p751/arith_amd64.s:2114
  ADCQ (.reg DX) (.reg R9),
  -- p751/arith_amd64.s:2115
  ADCQ (.imm 0) (.reg R10),
  -- p751/arith_amd64.s:2117
  MOVQ (.imm 0x84e9867d6ebe876) (.reg AX),
  -- p751/arith_amd64.s:2118
  MULQ (.reg R12),
  -- p751/arith_amd64.s:2119
  ADDQ (.reg AX) (.reg R8),
  -- p751/arith_amd64.s:2120
  ADCQ (.reg DX) (.reg R9),
  -- p751/arith_amd64.s:2121
  ADCQ (.imm 0) (.reg R10),
  -- p751/arith_amd64.s:2123
  MOVQ (.imm 0xda959b1a13f7cc76) (.reg AX),
  -- p751/arith_amd64.s:2124
  MULQ (.reg R13),
  -- p751/arith_amd64.s:2125
  ADDQ (.reg AX) (.reg R8),
  -- p751/arith_amd64.s:2126
  ADCQ (.reg DX) (.reg R9),
  -- p751/arith_amd64.s:2127
  ADCQ (.imm 0) (.reg R10),
  -- p751/arith_amd64.s:2129
  MOVQ (.imm 0xe3ec968549f878a8) (.reg AX),
  -- p751/arith_amd64.s:2130
  MULQ (.reg R14),
  -- p751/arith_amd64.s:2131
  ADDQ (.reg AX) (.reg R8),
  -- p751/arith_amd64.s:2132
  ADCQ (.reg DX) (.reg R9),
  -- p751/arith_amd64.s:2133
  ADCQ (.imm 0) (.reg R10),
  -- p751/arith_amd64.s:2135
  MOVQ (.mem SI 10) (.reg R15),
  -- p751/arith_amd64.s:2136
  MOVQ (.imm 0xeeb0000000000000) (.reg AX),
  -- p751/arith_amd64.s:2137
  MULQ (.reg R15),
  -- p751/arith_amd64.s:2138
  ADDQ (.reg AX) (.reg R8),
  -- p751/arith_amd64.s:2139
  ADCQ (.reg DX) (.reg R9),
  -- p751/arith_amd64.s:2140
  ADCQ (.imm 0) (.reg R10),
  -- p751/arith_amd64.s:2141
  ADDQ (.mem DI 15) (.reg R8),
  -- p751/arith_amd64.s:2142
  MOVQ (.reg R8) (.mem SI 3),
  -- p751/arith_amd64.s:2143
  ADCQ (.imm 0) (.reg R9),
  -- p751/arith_amd64.s:2144
  ADCQ (.imm 0) (.reg R10),
  -- p751/arith_amd64.s:2146
  XORQ (.reg R8) (.reg R8),
  -- p751/arith_amd64.s:2147
  MOVQ (.imm 0x6fe5d541f71c) (.reg AX),
  -- p751/arith_amd64.s:2148
  MULQ (.reg CX),
  -- p751/arith_amd64.s:2149
  ADDQ (.reg AX) (.reg R9),
  -- p751/arith_amd64.s:2150
  ADCQ (.reg DX) (.reg R10),
  -- p751/arith_amd64.s:2151
  ADCQ (.imm 0) (.reg R8),
  -- p751/arith_amd64.s:2153
  MOVQ (.imm 0xe12909f97badc66) (.reg AX),
  -- p751/arith_amd64.s:2154
  MULQ (.reg R11),
  -- p751/arith_amd64.s:2155
  ADDQ (.reg AX) (.reg R9),
  -- p751/arith_amd64.s:2156
  ADCQ (.reg DX) (.reg R10),
  -- p751/arith_amd64.s:2157
  ADCQ (.imm 0) (.reg R8),
  -- p751/arith_amd64.s:2159
  MOVQ (.imm 0x8562b5045cb25748) (.reg AX),
  -- p751/arith_amd64.s:2160
  MULQ (.reg R12),
  -- p751/arith_amd64.s:2161
  ADDQ (.reg AX) (.reg R9),
  -- p751/arith_amd64.s:2162
  ADCQ (.reg DX) (.reg R10),
  -- p751/arith_amd64.s:2163
  ADCQ (.imm 0) (.reg R8),
  -- p751/arith_amd64.s:2165
  MOVQ (.imm 0x84e9867d6ebe876) (.reg AX),
  -- p751/arith_amd64.s:2166
  MULQ (.reg R13),
  -- p751/arith_amd64.s:2167
  ADDQ (.reg AX) (.reg R9),
  -- p751/arith_amd64.s:2168
  ADCQ (.reg DX) (.reg R10),
  -- p751/arith_amd64.s:2169
  ADCQ (.imm 0) (.reg R8),
  -- p751/arith_amd64.s:2171
  MOVQ (.imm 0xda959b1a13f7cc76) (.reg AX),
  -- p751/arith_amd64.s:2172
  MULQ (.reg R14),
  -- p751/arith_amd64.s:2173
  ADDQ (.reg AX) (.reg R9),
  -- p751/arith_amd64.s:2174
  ADCQ (.reg DX) (.reg R10),
  -- p751/arith_amd64.s:2175
  ADCQ (.imm 0) (.reg R8),
  -- p751/arith_amd64.s:2177
  MOVQ (.imm 0xe3ec968549f878a8) (.reg AX),
  -- p751/arith_amd64.s:2178
  MULQ (.reg R15),
  -- p751/arith_amd64.s:2179
  ADDQ (.reg AX) (.reg R9),
  -- p751/arith_amd64.s:2180
  ADCQ (.reg DX) (.reg R10),
  -- p751/arith_amd64.s:2181
  ADCQ (.imm 0) (.reg R8),
  -- p751/arith_amd64.s:2183
  MOVQ (.mem SI 11) (.reg CX),
  -- p751/arith_amd64.s:2184
  MOVQ (.imm 0xeeb0000000000000) (.reg AX),
  -- p751/arith_amd64.s:2185
  MULQ (.reg CX),
  -- p751/arith_amd64.s:2186
  ADDQ (.reg AX) (.reg R9),
  -- p751/arith_amd64.s:2187
  ADCQ (.reg DX) (.reg R10),
  -- p751/arith_amd64.s:2188
  ADCQ (.imm 0) (.reg R8),
  -- p751/arith_amd64.s:2189
  ADDQ (.mem DI 16) (.reg R9),
  -- p751/arith_amd64.s:2190
  MOVQ (.reg R9) (.mem SI 4),
  -- p751/arith_amd64.s:2191
  ADCQ (.imm 0) (.reg R10),
  -- p751/arith_amd64.s:2192
  ADCQ (.imm 0) (.reg R8),
  -- p751/arith_amd64.s:2194
  XORQ (.reg R9) (.reg R9),
  -- p751/arith_amd64.s:2195
  MOVQ (.imm 0x6fe5d541f71c) (.reg AX),
  -- p751/arith_amd64.s:2196
  MULQ (.reg R11),
  -- p751/arith_amd64.s:2197
  ADDQ (.reg AX) (.reg R10),
  -- p751/arith_amd64.s:2198
  ADCQ (.reg DX) (.reg R8),
  -- p751/arith_amd64.s:2199
  ADCQ (.imm 0) (.reg R9),
  -- p751/arith_amd64.s:2201
  MOVQ (.imm 0xe12909f97badc66) (.reg AX),
  -- p751/arith_amd64.s:2202
  MULQ (.reg R12),
  -- p751/arith_amd64.s:2203
  ADDQ (.reg AX) (.reg R10),
  -- p751/arith_amd64.s:2204
  ADCQ (.reg DX) (.reg R8),
  -- p751/arith_amd64.s:2205
  ADCQ (.imm 0) (.reg R9),
  -- p751/arith_amd64.s:2207
  MOVQ (.imm 0x8562b5045cb25748) (.reg AX),
  -- p751/arith_amd64.s:2208
  MULQ (.reg R13),
  -- p751/arith_amd64.s:2209
  ADDQ (.reg AX) (.reg R10),
  -- p751/arith_amd64.s:2210
  ADCQ (.reg DX) (.reg R8),
  -- p751/arith_amd64.s:2211
  ADCQ (.imm 0) (.reg R9),
  -- p751/arith_amd64.s:2213
  MOVQ (.imm 0x84e9867d6ebe876) (.reg AX),
  -- p751/arith_amd64.s:2214
  MULQ (.reg R14),
  -- p751/arith_amd64.s:2215
  ADDQ (.reg AX) (.reg R10),
  -- p751/arith_amd64.s:2216
  ADCQ (.reg DX) (.reg R8),
  -- p751/arith_amd64.s:2217
  ADCQ (.imm 0) (.reg R9),
  -- p751/arith_amd64.s:2219
  MOVQ (.imm 0xda959b1a13f7cc76) (.reg AX),
  -- p751/arith_amd64.s:2220
  MULQ (.reg R15),
  -- p751/arith_amd64.s:2221
  ADDQ (.reg AX) (.reg R10),
  -- p751/arith_amd64.s:2222
  ADCQ (.reg DX) (.reg R8),
  -- p751/arith_amd64.s:2223
  ADCQ (.imm 0) (.reg R9),
  -- p751/arith_amd64.s:2225
  MOVQ (.imm 0xe3ec968549f878a8) (.reg AX),
  -- p751/arith_amd64.s:2226
  MULQ (.reg CX),
  -- p751/arith_amd64.s:2227
  ADDQ (.reg AX) (.reg R10),
  -- p751/arith_amd64.s:2228
  ADCQ (.reg DX) (.reg R8),
  -- p751/arith_amd64.s:2229
  ADCQ (.imm 0) (.reg R9),
  -- p751/arith_amd64.s:2230
  ADDQ (.mem DI 17) (.reg R10),
  -- p751/arith_amd64.s:2231
  MOVQ (.reg R10) (.mem SI 5),
  -- p751/arith_amd64.s:2232
  ADCQ (.imm 0) (.reg R8),
  -- p751/arith_amd64.s:2233
  ADCQ (.imm 0) (.reg R9),
  -- p751/arith_amd64.s:2235
  XORQ (.reg R10) (.reg R10),
  -- p751/arith_amd64.s:2236
  MOVQ (.imm 0x6fe5d541f71c) (.reg AX),
  -- p751/arith_amd64.s:2237
  MULQ (.reg R12),
  -- p751/arith_amd64.s:2238
  ADDQ (.reg AX) (.reg R8),
  -- p751/arith_amd64.s:2239
  ADCQ (.reg DX) (.reg R9),
  -- p751/arith_amd64.s:2240
  ADCQ (.imm 0) (.reg R10),
  -- p751/arith_amd64.s:2242
  MOVQ (.imm 0xe12909f97badc66) (.reg AX),
  -- p751/arith_amd64.s:2243
  MULQ (.reg R13),
  -- p751/arith_amd64.s:2244
  ADDQ (.reg AX) (.reg R8),
  -- p751/arith_amd64.s:2245
  ADCQ (.reg DX) (.reg R9),
  -- p751/arith_amd64.s:2246
  ADCQ (.imm 0) (.reg R10),
  -- p751/arith_amd64.s:2248
  MOVQ (.imm 0x8562b5045cb25748) (.reg AX),
  -- p751/arith_amd64.s:2249
  MULQ (.reg R14),
  -- p751/arith_amd64.s:2250
  ADDQ (.reg AX) (.reg R8),
  -- p751/arith_amd64.s:2251
  ADCQ (.reg DX) (.reg R9),
  -- p751/arith_amd64.s:2252
  ADCQ (.imm 0) (.reg R10),
  -- p751/arith_amd64.s:2254
  MOVQ (.imm 0x84e9867d6ebe876) (.reg AX),
  -- p751/arith_amd64.s:2255
  MULQ (.reg R15),
  -- p751/arith_amd64.s:2256
  ADDQ (.reg AX) (.reg R8),
  -- p751/arith_amd64.s:2257
  ADCQ (.reg DX) (.reg R9),
  -- p751/arith_amd64.s:2258
  ADCQ (.imm 0) (.reg R10),
  -- p751/arith_amd64.s:2260
  MOVQ (.imm 0xda959b1a13f7cc76) (.reg AX),
  -- p751/arith_amd64.s:2261
  MULQ (.reg CX),
  -- p751/arith_amd64.s:2262
  ADDQ (.reg AX) (.reg R8),
  -- p751/arith_amd64.s:2263
  ADCQ (.reg DX) (.reg R9),
  -- p751/arith_amd64.s:2264
  ADCQ (.imm 0) (.reg R10),
  -- p751/arith_amd64.s:2265
  ADDQ (.mem DI 18) (.reg R8),
  -- p751/arith_amd64.s:2266
  MOVQ (.reg R8) (.mem SI 6),
  -- p751/arith_amd64.s:2267
  ADCQ (.imm 0) (.reg R9),
  -- p751/arith_amd64.s:2268
  ADCQ (.imm 0) (.reg R10),
  -- p751/arith_amd64.s:2270
  XORQ (.reg R8) (.reg R8),
  -- p751/arith_amd64.s:2271
  MOVQ (.imm 0x6fe5d541f71c) (.reg AX),
  -- p751/arith_amd64.s:2272
  MULQ (.reg R13),
  -- p751/arith_amd64.s:2273
  ADDQ (.reg AX) (.reg R9),
  -- p751/arith_amd64.s:2274
  ADCQ (.reg DX) (.reg R10),
  -- p751/arith_amd64.s:2275
  ADCQ (.imm 0) (.reg R8),
  -- p751/arith_amd64.s:2277
  MOVQ (.imm 0xe12909f97badc66) (.reg AX),
  -- p751/arith_amd64.s:2278
  MULQ (.reg R14),
  -- p751/arith_amd64.s:2279
  ADDQ (.reg AX) (.reg R9),
  -- p751/arith_amd64.s:2280
  ADCQ (.reg DX) (.reg R10),
  -- p751/arith_amd64.s:2281
  ADCQ (.imm 0) (.reg R8),
  -- p751/arith_amd64.s:2283
  MOVQ (.imm 0x8562b5045cb25748) (.reg AX),
  -- p751/arith_amd64.s:2284
  MULQ (.reg R15),
  -- p751/arith_amd64.s:2285
  ADDQ (.reg AX) (.reg R9),
  -- p751/arith_amd64.s:2286
  ADCQ (.reg DX) (.reg R10),
  -- p751/arith_amd64.s:2287
  ADCQ (.imm 0) (.reg R8),
  -- p751/arith_amd64.s:2289
  MOVQ (.imm 0x84e9867d6ebe876) (.reg AX),
  -- p751/arith_amd64.s:2290
  MULQ (.reg CX),
  -- p751/arith_amd64.s:2291
  ADDQ (.reg AX) (.reg R9),
  -- p751/arith_amd64.s:2292
  ADCQ (.reg DX) (.reg R10),
  -- p751/arith_amd64.s:2293
  ADCQ (.imm 0) (.reg R8),
  -- p751/arith_amd64.s:2294
  ADDQ (.mem DI 19) (.reg R9),
  -- p751/arith_amd64.s:2295
  MOVQ (.reg R9) (.mem SI 7),
  -- p751/arith_amd64.s:2296
  ADCQ (.imm 0) (.reg R10),
  -- p751/arith_amd64.s:2297
  ADCQ (.imm 0) (.reg R8),
  -- p751/arith_amd64.s:2299
  XORQ (.reg R9) (.reg R9),
  -- p751/arith_amd64.s:2300
  MOVQ (.imm 0x6fe5d541f71c) (.reg AX),
  -- p751/arith_amd64.s:2301
  MULQ (.reg R14),
  -- p751/arith_amd64.s:2302
  ADDQ (.reg AX) (.reg R10),
  -- p751/arith_amd64.s:2303
  ADCQ (.reg DX) (.reg R8),
  -- p751/arith_amd64.s:2304
  ADCQ (.imm 0) (.reg R9),
  -- p751/arith_amd64.s:2306
  MOVQ (.imm 0xe12909f97badc66) (.reg AX),
  -- p751/arith_amd64.s:2307
  MULQ (.reg R15),
  -- p751/arith_amd64.s:2308
  ADDQ (.reg AX) (.reg R10),
  -- p751/arith_amd64.s:2309
  ADCQ (.reg DX) (.reg R8),
  -- p751/arith_amd64.s:2310
  ADCQ (.imm 0) (.reg R9),
  -- p751/arith_amd64.s:2312
  MOVQ (.imm 0x8562b5045cb25748) (.reg AX),
  -- p751/arith_amd64.s:2313
  MULQ (.reg CX),
  -- p751/arith_amd64.s:2314
  ADDQ (.reg AX) (.reg R10),
  -- p751/arith_amd64.s:2315
  ADCQ (.reg DX) (.reg R8),
  -- p751/arith_amd64.s:2316
  ADCQ (.imm 0) (.reg R9),
  -- p751/arith_amd64.s:2317
  ADDQ (.mem DI 20) (.reg R10),
  -- p751/arith_amd64.s:2318
  MOVQ (.reg R10) (.mem SI 8),
  -- p751/arith_amd64.s:2319
  ADCQ (.imm 0) (.reg R8),
  -- p751/arith_amd64.s:2320
  ADCQ (.imm 0) (.reg R9),
  -- p751/arith_amd64.s:2322
  XORQ (.reg R10) (.reg R10),
  -- p751/arith_amd64.s:2323
  MOVQ (.imm 0x6fe5d541f71c) (.reg AX),
  -- p751/arith_amd64.s:2324
  MULQ (.reg R15),
  -- p751/arith_amd64.s:2325
  ADDQ (.reg AX) (.reg R8),
  -- p751/arith_amd64.s:2326
  ADCQ (.reg DX) (.reg R9),
  -- p751/arith_amd64.s:2327
  ADCQ (.imm 0) (.reg R10),
  -- p751/arith_amd64.s:2329
  MOVQ (.imm 0xe12909f97badc66) (.reg AX),
  -- p751/arith_amd64.s:2330
  MULQ (.reg CX),
  -- p751/arith_amd64.s:2331
  ADDQ (.reg AX) (.reg R8),
  -- p751/arith_amd64.s:2332
  ADCQ (.reg DX) (.reg R9),
  -- p751/arith_amd64.s:2333
  ADCQ (.imm 0) (.reg R10),
  -- p751/arith_amd64.s:2334
  ADDQ (.mem DI 21) (.reg R8),
  -- p751/arith_amd64.s:2335
  MOVQ (.reg R8) (.mem SI 9),
  -- p751/arith_amd64.s:2336
  ADCQ (.imm 0) (.reg R9),
  -- p751/arith_amd64.s:2337
  ADCQ (.imm 0) (.reg R10),
  -- p751/arith_amd64.s:2339
  MOVQ (.imm 0x6fe5d541f71c) (.reg AX),
  -- p751/arith_amd64.s:2340
  MULQ (.reg CX),
  -- p751/arith_amd64.s:2341
  ADDQ (.reg AX) (.reg R9),
  -- p751/arith_amd64.s:2342
  ADCQ (.reg DX) (.reg R10),
  -- p751/arith_amd64.s:2343
  ADDQ (.mem DI 22) (.reg R9),
  -- p751/arith_amd64.s:2344
  MOVQ (.reg R9) (.mem SI 10),
  -- p751/arith_amd64.s:2345
  ADCQ (.imm 0) (.reg R10),
  -- p751/arith_amd64.s:2346
  ADDQ (.mem DI 23) (.reg R10),
  -- p751/arith_amd64.s:2347
  MOVQ (.reg R10) (.mem SI 11)
  ]

def rdc : Routine := { code := rdcCode, frame := 0, glob := [] }

/-- p751/arith_amd64.s:1739-2362 `rdcP751`, with BMI2 -/
def rdc_bmi2Code : List Instr := [
  -- p751/arith_amd64.s:1739
  MOVQ (.mem FP 0) (.reg SI),
  -- p751/arith_amd64.s:1740
  MOVQ (.mem FP 1) (.reg DI),
  -- p751/arith_amd64.s:2361
  MOVQ (.mem DI 0) (.reg DX),
  MULXQ (.glob 2 5) (.reg R9) (.reg R8),
  MULXQ (.glob 2 6) (.reg R10) (.reg R13),
  MOVQ (.reg R9) (.mem SI 6),
  XORQ (.reg AX) (.reg AX),
  MULXQ (.glob 2 7) (.reg R12) (.reg R14),
  ADDQ (.reg R10) (.reg R8),
  ADCQ (.reg R12) (.reg R13),
  MULXQ (.glob 2 8) (.reg R10) (.reg R9),
  ADCQ (.reg R10) (.reg R14),
  MULXQ (.glob 2 9) (.reg R11) (.reg R12),
  ADCQ (.reg R11) (.reg R9),
  MULXQ (.glob 2 10) (.reg BP) (.reg R10),
  ADCQ (.reg BP) (.reg R12),
  MULXQ (.glob 2 11) (.reg BX) (.reg R11),
  ADCQ (.reg BX) (.reg R10),
  ADCQ (.reg AX) (.reg R11),
  MOVQ (.mem DI 1) (.reg DX),
  MULXQ (.glob 2 5) (.reg BP) (.reg BX),
  ADDQ (.reg BP) (.reg R8),
  MOVQ (.reg R8) (.mem SI 7),
  ADCQ (.reg BX) (.reg R13),
  MULXQ (.glob 2 6) (.reg BX) (.reg BP),
  MOVQ (.reg BX) (.mem SI 10),
  ADCQ (.reg BP) (.reg R14),
  MULXQ (.glob 2 7) (.reg BX) (.reg R8),
  MOVQ (.reg BX) (.mem SI 11),
  ADCQ (.reg R9) (.reg R8),
  MULXQ (.glob 2 8) (.reg BP) (.reg R9),
  ADCQ (.reg R12) (.reg R9),
  MULXQ (.glob 2 9) (.reg BX) (.reg R12),
  ADCQ (.reg R12) (.reg R10),
  MULXQ (.glob 2 10) (.reg CX) (.reg R12),
  ADCQ (.reg R12) (.reg R11),
  MULXQ (.glob 2 11) (.reg DX) (.reg R12),
  ADCQ (.reg AX) (.reg R12),
  XORQ (.reg AX) (.reg AX),
  ADDQ (.mem SI 10) (.reg R13),
  ADCQ (.mem SI 11) (.reg R14),
  ADCQ (.reg BP) (.reg R8),
  ADCQ (.reg BX) (.reg R9),
  ADCQ (.reg CX) (.reg R10),
  ADCQ (.reg DX) (.reg R11),
  ADCQ (.reg AX) (.reg R12),
  MOVQ (.mem DI 2) (.reg DX),
  MULXQ (.glob 2 5) (.reg BP) (.reg BX),
  ADDQ (.reg BP) (.reg R13),
  MOVQ (.reg R13) (.mem SI 8),
  ADCQ (.reg BX) (.reg R14),
  MULXQ (.glob 2 6) (.reg BP) (.reg BX),
  MOVQ (.reg BP) (.mem SI 10),
  ADCQ (.reg BX) (.reg R8),
  MULXQ (.glob 2 7) (.reg BX) (.reg R13),
  MOVQ (.reg BX) (.mem SI 11),
  ADCQ (.reg R13) (.reg R9),
  MULXQ (.glob 2 8) (.reg BP) (.reg R13),
  ADCQ (.reg R13) (.reg R10),
  MULXQ (.glob 2 9) (.reg BX) (.reg R13),
  ADCQ (.reg R13) (.reg R11),
  MULXQ (.glob 2 10) (.reg CX) (.reg R13),
  ADCQ (.reg R13) (.reg R12),
  MULXQ (.glob 2 11) (.reg DX) (.reg R13),
  ADCQ (.reg AX) (.reg R13),
  XORQ (.reg AX) (.reg AX),
  ADDQ (.mem SI 10) (.reg R14),
  ADCQ (.mem SI 11) (.reg R8),
  ADCQ (.reg BP) (.reg R9),
  ADCQ (.reg BX) (.reg R10),
  ADCQ (.reg CX) (.reg R11),
  ADCQ (.reg DX) (.reg R12),
  ADCQ (.reg AX) (.reg R13),
  MOVQ (.mem DI 3) (.reg DX),
  MULXQ (.glob 2 5) (.reg BP) (.reg BX),
  ADDQ (.reg R14) (.reg BP),
  ADCQ (.reg BX) (.reg R8),
  MULXQ (.glob 2 6) (.reg R15) (.reg BX),
  MOVQ (.reg R15) (.mem SI 10),
  ADCQ (.reg BX) (.reg R9),
  MULXQ (.glob 2 7) (.reg BX) (.reg R14),
  MOVQ (.reg BX) (.mem SI 11),
  ADCQ (.reg R14) (.reg R10),
  MULXQ (.glob 2 8) (.reg R15) (.reg R14),
  ADCQ (.reg R14) (.reg R11),
  MULXQ (.glob 2 9) (.reg BX) (.reg R14),
  ADCQ (.reg R14) (.reg R12),
  MULXQ (.glob 2 10) (.reg CX) (.reg R14),
  ADCQ (.reg R14) (.reg R13),
  MULXQ (.glob 2 11) (.reg DX) (.reg R14),
  ADCQ (.reg AX) (.reg R14),
  XORQ (.reg AX) (.reg AX),
  ADDQ (.mem SI 10) (.reg R8),
  ADCQ (.mem SI 11) (.reg R9),
  ADCQ (.reg R15) (.reg R10),
  ADCQ (.reg BX) (.reg R11),
  ADCQ (.reg CX) (.reg R12),
  ADCQ (.reg DX) (.reg R13),
  ADCQ (.reg AX) (.reg R14),
  XORQ (.reg R15) (.reg R15),
  MOVQ (.mem SI 6) (.reg AX),
  MOVQ (.mem SI 7) (.reg DX),
  MOVQ (.mem SI 8) (.reg BX),
  ADDQ (.mem DI 5) (.reg AX),
  ADCQ (.mem DI 6) (.reg DX),
  ADCQ (.mem DI 7) (.reg BX),
  MOVQ (.reg AX) (.mem DI 5),
  MOVQ (.reg DX) (.mem DI 6),
  MOVQ (.reg BX) (.mem DI 7),
  ADCQ (.mem DI 8) (.reg BP),
  ADCQ (.mem DI 9) (.reg R8),
  ADCQ (.mem DI 10) (.reg R9),
  ADCQ (.mem DI 11) (.reg R10),
  ADCQ (.mem DI 12) (.reg R11),
  ADCQ (.mem DI 13) (.reg R12),
  ADCQ (.mem DI 14) (.reg R13),
  ADCQ (.mem DI 15) (.reg R14),
  ADCQ (.mem DI 16) (.reg R15),
  MOVQ (.reg BP) (.mem DI 8),
  MOVQ (.reg R8) (.mem DI 9),
  MOVQ (.reg R9) (.mem DI 10),
  MOVQ (.reg R10) (.mem DI 11),
  MOVQ (.reg R11) (.mem DI 12),
  MOVQ (.reg R12) (.mem DI 13),
  MOVQ (.reg R13) (.mem DI 14),
  MOVQ (.reg R14) (.mem DI 15),
  MOVQ (.reg R15) (.mem DI 16),
  MOVQ (.mem DI 17) (.reg R8),
  MOVQ (.mem DI 18) (.reg R9),
  MOVQ (.mem DI 19) (.reg R10),
  MOVQ (.mem DI 20) (.reg R11),
  MOVQ (.mem DI 21) (.reg R12),
  MOVQ (.mem DI 22) (.reg R13),
  MOVQ (.mem DI 23) (.reg R14),
  ADCQ (.imm 0) (.reg R8),
  ADCQ (.imm 0) (.reg R9),
  ADCQ (.imm 0) (.reg R10),
  ADCQ (.imm 0) (.reg R11),
  ADCQ (.imm 0) (.reg R12),
  ADCQ (.imm 0) (.reg R13),
  ADCQ (.imm 0) (.reg R14),
  MOVQ (.reg R8) (.mem DI 17),
  MOVQ (.reg R9) (.mem DI 18),
  MOVQ (.reg R10) (.mem DI 19),
  MOVQ (.reg R11) (.mem DI 20),
  MOVQ (.reg R12) (.mem DI 21),
  MOVQ (.reg R13) (.mem DI 22),
  MOVQ (.reg R14) (.mem DI 23),
  MOVQ (.mem DI 4) (.reg DX),
  MULXQ (.glob 2 5) (.reg R9) (.reg R8),
  MULXQ (.glob 2 6) (.reg R10) (.reg R13),
  MOVQ (.reg R9) (.mem SI 6),
  XORQ (.reg AX) (.reg AX),
  MULXQ (.glob 2 7) (.reg R12) (.reg R14),
  ADDQ (.reg R10) (.reg R8),
  ADCQ (.reg R12) (.reg R13),
  MULXQ (.glob 2 8) (.reg R10) (.reg R9),
  ADCQ (.reg R10) (.reg R14),
  MULXQ (.glob 2 9) (.reg R11) (.reg R12),
  ADCQ (.reg R11) (.reg R9),
  MULXQ (.glob 2 10) (.reg BP) (.reg R10),
  ADCQ (.reg BP) (.reg R12),
  MULXQ (.glob 2 11) (.reg BX) (.reg R11),
  ADCQ (.reg BX) (.reg R10),
  ADCQ (.reg AX) (.reg R11),
  MOVQ (.mem DI 5) (.reg DX),
  MULXQ (.glob 2 5) (.reg BP) (.reg BX),
  ADDQ (.reg BP) (.reg R8),
  MOVQ (.reg R8) (.mem SI 7),
  ADCQ (.reg BX) (.reg R13),
  MULXQ (.glob 2 6) (.reg BX) (.reg BP),
  MOVQ (.reg BX) (.mem SI 10),
  ADCQ (.reg BP) (.reg R14),
  MULXQ (.glob 2 7) (.reg BX) (.reg R8),
  MOVQ (.reg BX) (.mem SI 11),
  ADCQ (.reg R9) (.reg R8),
  MULXQ (.glob 2 8) (.reg BP) (.reg R9),
  ADCQ (.reg R12) (.reg R9),
  MULXQ (.glob 2 9) (.reg BX) (.reg R12),
  ADCQ (.reg R12) (.reg R10),
  MULXQ (.glob 2 10) (.reg CX) (.reg R12),
  ADCQ (.reg R12) (.reg R11),
  MULXQ (.glob 2 11) (.reg DX) (.reg R12),
  ADCQ (.reg AX) (.reg R12),
  XORQ (.reg AX) (.reg AX),
  ADDQ (.mem SI 10) (.reg R13),
  ADCQ (.mem SI 11) (.reg R14),
  ADCQ (.reg BP) (.reg R8),
  ADCQ (.reg BX) (.reg R9),
  ADCQ (.reg CX) (.reg R10),
  ADCQ (.reg DX) (.reg R11),
  ADCQ (.reg AX) (.reg R12),
  MOVQ (.mem DI 6) (.reg DX),
  MULXQ (.glob 2 5) (.reg BP) (.reg BX),
  ADDQ (.reg BP) (.reg R13),
  MOVQ (.reg R13) (.mem SI 8),
  ADCQ (.reg BX) (.reg R14),
  MULXQ (.glob 2 6) (.reg BP) (.reg BX),
  MOVQ (.reg BP) (.mem SI 10),
  ADCQ (.reg BX) (.reg R8),
  MULXQ (.glob 2 7) (.reg BX) (.reg R13),
  MOVQ (.reg BX) (.mem SI 11),
  ADCQ (.reg R13) (.reg R9),
  MULXQ (.glob 2 8) (.reg BP) (.reg R13),
  ADCQ (.reg R13) (.reg R10),
  MULXQ (.glob 2 9) (.reg BX) (.reg R13),
  ADCQ (.reg R13) (.reg R11),
  MULXQ (.glob 2 10) (.reg CX) (.reg R13),
  ADCQ (.reg R13) (.reg R12),
  MULXQ (.glob 2 11) (.reg DX) (.reg R13),
  ADCQ (.reg AX) (.reg R13),
  XORQ (.reg AX) (.reg AX),
  ADDQ (.mem SI 10) (.reg R14),
  ADCQ (.mem SI 11) (.reg R8),
  ADCQ (.reg BP) (.reg R9),
  ADCQ (.reg BX) (.reg R10),
  ADCQ (.reg CX) (.reg R11),
  ADCQ (.reg DX) (.reg R12),
  ADCQ (.reg AX) (.reg R13),
  MOVQ (.mem DI 7) (.reg DX),
  MULXQ (.glob 2 5) (.reg BP) (.reg BX),
  ADDQ (.reg R14) (.reg BP),
  ADCQ (.reg BX) (.reg R8),
  MULXQ (.glob 2 6) (.reg R15) (.reg BX),
  MOVQ (.reg R15) (.mem SI 10),
  ADCQ (.reg BX) (.reg R9),
  MULXQ (.glob 2 7) (.reg BX) (.reg R14),
  MOVQ (.reg BX) (.mem SI 11),
  ADCQ (.reg R14) (.reg R10),
  MULXQ (.glob 2 8) (.reg R15) (.reg R14),
  ADCQ (.reg R14) (.reg R11),
  MULXQ (.glob 2 9) (.reg BX) (.reg R14),
  ADCQ (.reg R14) (.reg R12),
  MULXQ (.glob 2 10) (.reg CX) (.reg R14),
  ADCQ (.reg R14) (.reg R13),
  MULXQ (.glob 2 11) (.reg DX) (.reg R14),
  ADCQ (.reg AX) (.reg R14),
  XORQ (.reg AX) (.reg AX),
  ADDQ (.mem SI 10) (.reg R8),
  ADCQ (.mem SI 11) (.reg R9),
  ADCQ (.reg R15) (.reg R10),
  ADCQ (.reg BX) (.reg R11),
  ADCQ (.reg CX) (.reg R12),
  ADCQ (.reg DX) (.reg R13),
  ADCQ (.reg AX) (.reg R14),
  XORQ (.reg R15) (.reg R15),
  MOVQ (.mem SI 6) (.reg AX),
  MOVQ (.mem SI 7) (.reg DX),
  MOVQ (.mem SI 8) (.reg BX),
  ADDQ (.mem DI 9) (.reg AX),
  ADCQ (.mem DI 10) (.reg DX),
  ADCQ (.mem DI 11) (.reg BX),
  MOVQ (.reg AX) (.mem DI 9),
  MOVQ (.reg DX) (.mem DI 10),
  MOVQ (.reg BX) (.mem DI 11),
  ADCQ (.mem DI 12) (.reg BP),
  ADCQ (.mem DI 13) (.reg R8),
  ADCQ (.mem DI 14) (.reg R9),
  ADCQ (.mem DI 15) (.reg R10),
  ADCQ (.mem DI 16) (.reg R11),
  ADCQ (.mem DI 17) (.reg R12),
  ADCQ (.mem DI 18) (.reg R13),
  ADCQ (.mem DI 19) (.reg R14),
  ADCQ (.mem DI 20) (.reg R15),
  MOVQ (.reg BP) (.mem SI 0),
  MOVQ (.reg R8) (.mem DI 13),
  MOVQ (.reg R9) (.mem DI 14),
  MOVQ (.reg R10) (.mem DI 15),
  MOVQ (.reg R11) (.mem DI 16),
  MOVQ (.reg R12) (.mem DI 17),
  MOVQ (.reg R13) (.mem DI 18),
  MOVQ (.reg R14) (.mem DI 19),
  MOVQ (.reg R15) (.mem DI 20),
  MOVQ (.mem DI 21) (.reg R12),
  MOVQ (.mem DI 22) (.reg R13),
  MOVQ (.mem DI 23) (.reg R14),
  ADCQ (.imm 0) (.reg R12),
  ADCQ (.imm 0) (.reg R13),
  ADCQ (.imm 0) (.reg R14),
  MOVQ (.reg R12) (.mem DI 21),
  MOVQ (.reg R13) (.mem DI 22),
  MOVQ (.reg R14) (.mem DI 23),
  MOVQ (.mem DI 8) (.reg DX),
  MULXQ (.glob 2 5) (.reg R9) (.reg R8),
  MULXQ (.glob 2 6) (.reg R10) (.reg R13),
  MOVQ (.reg R9) (.mem SI 6),
  XORQ (.reg AX) (.reg AX),
  MULXQ (.glob 2 7) (.reg R12) (.reg R14),
  ADDQ (.reg R10) (.reg R8),
  ADCQ (.reg R12) (.reg R13),
  MULXQ (.glob 2 8) (.reg R10) (.reg R9),
  ADCQ (.reg R10) (.reg R14),
  MULXQ (.glob 2 9) (.reg R11) (.reg R12),
  ADCQ (.reg R11) (.reg R9),
  MULXQ (.glob 2 10) (.reg BP) (.reg R10),
  ADCQ (.reg BP) (.reg R12),
  MULXQ (.glob 2 11) (.reg BX) (.reg R11),
  ADCQ (.reg BX) (.reg R10),
  ADCQ (.reg AX) (.reg R11),
  MOVQ (.mem DI 9) (.reg DX),
  MULXQ (.glob 2 5) (.reg BP) (.reg BX),
  ADDQ (.reg BP) (.reg R8),
  MOVQ (.reg R8) (.mem SI 7),
  ADCQ (.reg BX) (.reg R13),
  MULXQ (.glob 2 6) (.reg BX) (.reg BP),
  MOVQ (.reg BX) (.mem SI 10),
  ADCQ (.reg BP) (.reg R14),
  MULXQ (.glob 2 7) (.reg BX) (.reg R8),
  MOVQ (.reg BX) (.mem SI 11),
  ADCQ (.reg R9) (.reg R8),
  MULXQ (.glob 2 8) (.reg BP) (.reg R9),
  ADCQ (.reg R12) (.reg R9),
  MULXQ (.glob 2 9) (.reg BX) (.reg R12),
  ADCQ (.reg R12) (.reg R10),
  MULXQ (.glob 2 10) (.reg CX) (.reg R12),
  ADCQ (.reg R12) (.reg R11),
  MULXQ (.glob 2 11) (.reg DX) (.reg R12),
  ADCQ (.reg AX) (.reg R12),
  XORQ (.reg AX) (.reg AX),
  ADDQ (.mem SI 10) (.reg R13),
  ADCQ (.mem SI 11) (.reg R14),
  ADCQ (.reg BP) (.reg R8),
  ADCQ (.reg BX) (.reg R9),
  ADCQ (.reg CX) (.reg R10),
  ADCQ (.reg DX) (.reg R11),
  ADCQ (.reg AX) (.reg R12),
  MOVQ (.mem DI 10) (.reg DX),
  MULXQ (.glob 2 5) (.reg BP) (.reg BX),
  ADDQ (.reg BP) (.reg R13),
  MOVQ (.reg R13) (.mem SI 8),
  ADCQ (.reg BX) (.reg R14),
  MULXQ (.glob 2 6) (.reg BP) (.reg BX),
  MOVQ (.reg BP) (.mem SI 10),
  ADCQ (.reg BX) (.reg R8),
  MULXQ (.glob 2 7) (.reg BX) (.reg R13),
  MOVQ (.reg BX) (.mem SI 11),
  ADCQ (.reg R13) (.reg R9),
  MULXQ (.glob 2 8) (.reg BP) (.reg R13),
  ADCQ (.reg R13) (.reg R10),
  MULXQ (.glob 2 9) (.reg BX) (.reg R13),
  ADCQ (.reg R13) (.reg R11),
  MULXQ (.glob 2 10) (.reg CX) (.reg R13),
  ADCQ (.reg R13) (.reg R12),
  MULXQ (.glob 2 11) (.reg DX) (.reg R13),
  ADCQ (.reg AX) (.reg R13),
  XORQ (.reg AX) (.reg AX),
  ADDQ (.mem SI 10) (.reg R14),
  ADCQ (.mem SI 11) (.reg R8),
  ADCQ (.reg BP) (.reg R9),
  ADCQ (.reg BX) (.reg R10),
  ADCQ (.reg CX) (.reg R11),
  ADCQ (.reg DX) (.reg R12),
  ADCQ (.reg AX) (.reg R13),
  MOVQ (.mem DI 11) (.reg DX),
  MULXQ (.glob 2 5) (.reg BP) (.reg BX),
  ADDQ (.reg R14) (.reg BP),
  ADCQ (.reg BX) (.reg R8),
  MULXQ (.glob 2 6) (.reg R15) (.reg BX),
  MOVQ (.reg R15) (.mem SI 10),
  ADCQ (.reg BX) (.reg R9),
  MULXQ (.glob 2 7) (.reg BX) (.reg R14),
  MOVQ (.reg BX) (.mem SI 11),
  ADCQ (.reg R14) (.reg R10),
  MULXQ (.glob 2 8) (.reg R15) (.reg R14),
  ADCQ (.reg R14) (.reg R11),
  MULXQ (.glob 2 9) (.reg BX) (.reg R14),
  ADCQ (.reg R14) (.reg R12),
  MULXQ (.glob 2 10) (.reg CX) (.reg R14),
  ADCQ (.reg R14) (.reg R13),
  MULXQ (.glob 2 11) (.reg DX) (.reg R14),
  ADCQ (.reg AX) (.reg R14),
  XORQ (.reg AX) (.reg AX),
  ADDQ (.mem SI 10) (.reg R8),
  ADCQ (.mem SI 11) (.reg R9),
  ADCQ (.reg R15) (.reg R10),
  ADCQ (.reg BX) (.reg R11),
  ADCQ (.reg CX) (.reg R12),
  ADCQ (.reg DX) (.reg R13),
  ADCQ (.reg AX) (.reg R14),
  MOVQ (.mem SI 6) (.reg AX),
  MOVQ (.mem SI 7) (.reg DX),
  MOVQ (.mem SI 8) (.reg BX),
  ADDQ (.mem DI 13) (.reg AX),
  ADCQ (.mem DI 14) (.reg DX),
  ADCQ (.mem DI 15) (.reg BX),
  MOVQ (.reg AX) (.mem SI 1),
  MOVQ (.reg DX) (.mem SI 2),
  MOVQ (.reg BX) (.mem SI 3),
  ADCQ (.mem DI 16) (.reg BP),
  ADCQ (.mem DI 17) (.reg R8),
  ADCQ (.mem DI 18) (.reg R9),
  ADCQ (.mem DI 19) (.reg R10),
  ADCQ (.mem DI 20) (.reg R11),
  ADCQ (.mem DI 21) (.reg R12),
  ADCQ (.mem DI 22) (.reg R13),
  ADCQ (.mem DI 23) (.reg R14),
  MOVQ (.reg BP) (.mem SI 4),
  MOVQ (.reg R8) (.mem SI 5),
  MOVQ (.reg R9) (.mem SI 6),
  MOVQ (.reg R10) (.mem SI 7),
  MOVQ (.reg R11) (.mem SI 8),
  MOVQ (.reg R12) (.mem SI 9),
  MOVQ (.reg R13) (.mem SI 10),
  MOVQ (.reg R14) (.mem SI 11)
  ]

def rdc_bmi2 : Routine := { code := rdc_bmi2Code, frame := 0, glob := [p1] }

/-- p751/arith_amd64.s:1739-2362 `rdcP751`, with BMI2 and ADX -/
def rdc_adxCode : List Instr := [
  -- p751/arith_amd64.s:1739
  MOVQ (.mem FP 0) (.reg SI),
  -- p751/arith_amd64.s:1740
  MOVQ (.mem FP 1) (.reg DI),
  -- p751/arith_amd64.s:2354
  MOVQ (.mem DI 0) (.reg DX),
  MULXQ (.glob 2 5) (.reg R9) (.reg R8),
  MULXQ (.glob 2 6) (.reg R10) (.reg R13),
  MOVQ (.reg R9) (.mem SI 6),
  XORQ (.reg AX) (.reg AX),
  MULXQ (.glob 2 7) (.reg R12) (.reg R14),
  ADOXQ (.reg R10) (.reg R8),
  ADOXQ (.reg R12) (.reg R13),
  MULXQ (.glob 2 8) (.reg R10) (.reg R9),
  ADOXQ (.reg R10) (.reg R14),
  MULXQ (.glob 2 9) (.reg R11) (.reg R12),
  ADOXQ (.reg R11) (.reg R9),
  MULXQ (.glob 2 10) (.reg BP) (.reg R10),
  ADOXQ (.reg BP) (.reg R12),
  MULXQ (.glob 2 11) (.reg BX) (.reg R11),
  ADOXQ (.reg BX) (.reg R10),
  ADOXQ (.reg AX) (.reg R11),
  MOVQ (.mem DI 1) (.reg DX),
  MULXQ (.glob 2 5) (.reg BP) (.reg BX),
  XORQ (.reg AX) (.reg AX),
  ADCXQ (.reg BP) (.reg R8),
  MOVQ (.reg R8) (.mem SI 7),
  ADCXQ (.reg BX) (.reg R13),
  MULXQ (.glob 2 6) (.reg BX) (.reg BP),
  ADOXQ (.reg BX) (.reg R13),
  ADCXQ (.reg BP) (.reg R14),
  MULXQ (.glob 2 7) (.reg BX) (.reg R8),
  ADOXQ (.reg BX) (.reg R14),
  ADCXQ (.reg R9) (.reg R8),
  MULXQ (.glob 2 8) (.reg BP) (.reg R9),
  ADCXQ (.reg R12) (.reg R9),
  MULXQ (.glob 2 9) (.reg BX) (.reg R12),
  ADCXQ (.reg R12) (.reg R10),
  MULXQ (.glob 2 10) (.reg CX) (.reg R12),
  ADCXQ (.reg R12) (.reg R11),
  MULXQ (.glob 2 11) (.reg DX) (.reg R12),
  ADCXQ (.reg AX) (.reg R12),
  ADOXQ (.reg BP) (.reg R8),
  ADOXQ (.reg BX) (.reg R9),
  ADOXQ (.reg CX) (.reg R10),
  ADOXQ (.reg DX) (.reg R11),
  ADOXQ (.reg AX) (.reg R12),
  MOVQ (.mem DI 2) (.reg DX),
  MULXQ (.glob 2 5) (.reg BP) (.reg BX),
  XORQ (.reg AX) (.reg AX),
  ADCXQ (.reg BP) (.reg R13),
  MOVQ (.reg R13) (.mem SI 8),
  ADCXQ (.reg BX) (.reg R14),
  MULXQ (.glob 2 6) (.reg BP) (.reg BX),
  ADOXQ (.reg BP) (.reg R14),
  ADCXQ (.reg BX) (.reg R8),
  MULXQ (.glob 2 7) (.reg BX) (.reg R13),
  ADOXQ (.reg BX) (.reg R8),
  ADCXQ (.reg R13) (.reg R9),
  MULXQ (.glob 2 8) (.reg BP) (.reg R13),
  ADCXQ (.reg R13) (.reg R10),
  MULXQ (.glob 2 9) (.reg BX) (.reg R13),
  ADCXQ (.reg R13) (.reg R11),
  MULXQ (.glob 2 10) (.reg CX) (.reg R13),
  ADCXQ (.reg R13) (.reg R12),
  MULXQ (.glob 2 11) (.reg DX) (.reg R13),
  ADCXQ (.reg AX) (.reg R13),
  ADOXQ (.reg BP) (.reg R9),
  ADOXQ (.reg BX) (.reg R10),
  ADOXQ (.reg CX) (.reg R11),
  ADOXQ (.reg DX) (.reg R12),
  ADOXQ (.reg AX) (.reg R13),
  MOVQ (.mem DI 3) (.reg DX),
  MULXQ (.glob 2 5) (.reg BP) (.reg BX),
  XORQ (.reg AX) (.reg AX),
  ADCXQ (.reg R14) (.reg BP),
  ADCXQ (.reg BX) (.reg R8),
  MULXQ (.glob 2 6) (.reg R15) (.reg BX),
  ADOXQ (.reg R15) (.reg R8),
  ADCXQ (.reg BX) (.reg R9),
  MULXQ (.glob 2 7) (.reg BX) (.reg R14),
  ADOXQ (.reg BX) (.reg R9),
  ADCXQ (.reg R14) (.reg R10),
  MULXQ (.glob 2 8) (.reg R15) (.reg R14),
  ADCXQ (.reg R14) (.reg R11),
  MULXQ (.glob 2 9) (.reg BX) (.reg R14),
  ADCXQ (.reg R14) (.reg R12),
  MULXQ (.glob 2 10) (.reg CX) (.reg R14),
  ADCXQ (.reg R14) (.reg R13),
  MULXQ (.glob 2 11) (.reg DX) (.reg R14),
  ADCXQ (.reg AX) (.reg R14),
  ADOXQ (.reg R15) (.reg R10),
  ADOXQ (.reg BX) (.reg R11),
  ADOXQ (.reg CX) (.reg R12),
  ADOXQ (.reg DX) (.reg R13),
  ADOXQ (.reg AX) (.reg R14),
  XORQ (.reg R15) (.reg R15),
  MOVQ (.mem SI 6) (.reg AX),
  MOVQ (.mem SI 7) (.reg DX),
  MOVQ (.mem SI 8) (.reg BX),
  ADDQ (.mem DI 5) (.reg AX),
  ADCQ (.mem DI 6) (.reg DX),
  ADCQ (.mem DI 7) (.reg BX),
  MOVQ (.reg AX) (.mem DI 5),
  MOVQ (.reg DX) (.mem DI 6),
  MOVQ (.reg BX) (.mem DI 7),
  ADCQ (.mem DI 8) (.reg BP),
  ADCQ (.mem DI 9) (.reg R8),
  ADCQ (.mem DI 10) (.reg R9),
  ADCQ (.mem DI 11) (.reg R10),
  ADCQ (.mem DI 12) (.reg R11),
  ADCQ (.mem DI 13) (.reg R12),
  ADCQ (.mem DI 14) (.reg R13),
  ADCQ (.mem DI 15) (.reg R14),
  ADCQ (.mem DI 16) (.reg R15),
  MOVQ (.reg BP) (.mem DI 8),
  MOVQ (.reg R8) (.mem DI 9),
  MOVQ (.reg R9) (.mem DI 10),
  MOVQ (.reg R10) (.mem DI 11),
  MOVQ (.reg R11) (.mem DI 12),
  MOVQ (.reg R12) (.mem DI 13),
  MOVQ (.reg R13) (.mem DI 14),
  MOVQ (.reg R14) (.mem DI 15),
  MOVQ (.reg R15) (.mem DI 16),
  MOVQ (.mem DI 17) (.reg R8),
  MOVQ (.mem DI 18) (.reg R9),
  MOVQ (.mem DI 19) (.reg R10),
  MOVQ (.mem DI 20) (.reg R11),
  MOVQ (.mem DI 21) (.reg R12),
  MOVQ (.mem DI 22) (.reg R13),
  MOVQ (.mem DI 23) (.reg R14),
  ADCQ (.imm 0) (.reg R8),
  ADCQ (.imm 0) (.reg R9),
  ADCQ (.imm 0) (.reg R10),
  ADCQ (.imm 0) (.reg R11),
  ADCQ (.imm 0) (.reg R12),
  ADCQ (.imm 0) (.reg R13),
  ADCQ (.imm 0) (.reg R14),
  MOVQ (.reg R8) (.mem DI 17),
  MOVQ (.reg R9) (.mem DI 18),
  MOVQ (.reg R10) (.mem DI 19),
  MOVQ (.reg R11) (.mem DI 20),
  MOVQ (.reg R12) (.mem DI 21),
  MOVQ (.reg R13) (.mem DI 22),
  MOVQ (.reg R14) (.mem DI 23),
  MOVQ (.mem DI 4) (.reg DX),
  MULXQ (.glob 2 5) (.reg R9) (.reg R8),
  MULXQ (.glob 2 6) (.reg R10) (.reg R13),
  MOVQ (.reg R9) (.mem SI 6),
  XORQ (.reg AX) (.reg AX),
  MULXQ (.glob 2 7) (.reg R12) (.reg R14),
  ADOXQ (.reg R10) (.reg R8),
  ADOXQ (.reg R12) (.reg R13),
  MULXQ (.glob 2 8) (.reg R10) (.reg R9),
  ADOXQ (.reg R10) (.reg R14),
  MULXQ (.glob 2 9) (.reg R11) (.reg R12),
  ADOXQ (.reg R11) (.reg R9),
  MULXQ (.glob 2 10) (.reg BP) (.reg R10),
  ADOXQ (.reg BP) (.reg R12),
  MULXQ (.glob 2 11) (.reg BX) (.reg R11),
  ADOXQ (.reg BX) (.reg R10),
  ADOXQ (.reg AX) (.reg R11),
  MOVQ (.mem DI 5) (.reg DX),
  MULXQ (.glob 2 5) (.reg BP) (.reg BX),
  XORQ (.reg AX) (.reg AX),
  ADCXQ (.reg BP) (.reg R8),
  MOVQ (.reg R8) (.mem SI 7),
  ADCXQ (.reg BX) (.reg R13),
  MULXQ (.glob 2 6) (.reg BX) (.reg BP),
  ADOXQ (.reg BX) (.reg R13),
  ADCXQ (.reg BP) (.reg R14),
  MULXQ (.glob 2 7) (.reg BX) (.reg R8),
  ADOXQ (.reg BX) (.reg R14),
  ADCXQ (.reg R9) (.reg R8),
  MULXQ (.glob 2 8) (.reg BP) (.reg R9),
  ADCXQ (.reg R12) (.reg R9),
  MULXQ (.glob 2 9) (.reg BX) (.reg R12),
  ADCXQ (.reg R12) (.reg R10),
  MULXQ (.glob 2 10) (.reg CX) (.reg R12),
  ADCXQ (.reg R12) (.reg R11),
  MULXQ (.glob 2 11) (.reg DX) (.reg R12),
  ADCXQ (.reg AX) (.reg R12),
  ADOXQ (.reg BP) (.reg R8),
  ADOXQ (.reg BX) (.reg R9),
  ADOXQ (.reg CX) (.reg R10),
  ADOXQ (.reg DX) (.reg R11),
  ADOXQ (.reg AX) (.reg R12),
  MOVQ (.mem DI 6) (.reg DX),
  MULXQ (.glob 2 5) (.reg BP) (.reg BX),
  XORQ (.reg AX) (.reg AX),
  ADCXQ (.reg BP) (.reg R13),
  MOVQ (.reg R13) (.mem SI 8),
  ADCXQ (.reg BX) (.reg R14),
  MULXQ (.glob 2 6) (.reg BP) (.reg BX),
  ADOXQ (.reg BP) (.reg R14),
  ADCXQ (.reg BX) (.reg R8),
  MULXQ (.glob 2 7) (.reg BX) (.reg R13),
  ADOXQ (.reg BX) (.reg R8),
  ADCXQ (.reg R13) (.reg R9),
  MULXQ (.glob 2 8) (.reg BP) (.reg R13),
  ADCXQ (.reg R13) (.reg R10),
  MULXQ (.glob 2 9) (.reg BX) (.reg R13),
  ADCXQ (.reg R13) (.reg R11),
  MULXQ (.glob 2 10) (.reg CX) (.reg R13),
  ADCXQ (.reg R13) (.reg R12),
  MULXQ (.glob 2 11) (.reg DX) (.reg R13),
  ADCXQ (.reg AX) (.reg R13),
  ADOXQ (.reg BP) (.reg R9),
  ADOXQ (.reg BX) (.reg R10),
  ADOXQ (.reg CX) (.reg R11),
  ADOXQ (.reg DX) (.reg R12),
  ADOXQ (.reg AX) (.reg R13),
  MOVQ (.mem DI 7) (.reg DX),
  MULXQ (.glob 2 5) (.reg BP) (.reg BX),
  XORQ (.reg AX) (.reg AX),
  ADCXQ (.reg R14) (.reg BP),
  ADCXQ (.reg BX) (.reg R8),
  MULXQ (.glob 2 6) (.reg R15) (.reg BX),
  ADOXQ (.reg R15) (.reg R8),
  ADCXQ (.reg BX) (.reg R9),
  MULXQ (.glob 2 7) (.reg BX) (.reg R14),
  ADOXQ (.reg BX) (.reg R9),
  ADCXQ (.reg R14) (.reg R10),
  MULXQ (.glob 2 8) (.reg R15) (.reg R14),
  ADCXQ (.reg R14) (.reg R11),
  MULXQ (.glob 2 9) (.reg BX) (.reg R14),
  ADCXQ (.reg R14) (.reg R12),
  MULXQ (.glob 2 10) (.reg CX) (.reg R14),
  ADCXQ (.reg R14) (.reg R13),
  MULXQ (.glob 2 11) (.reg DX) (.reg R14),
  ADCXQ (.reg AX) (.reg R14),
  ADOXQ (.reg R15) (.reg R10),
  ADOXQ (.reg BX) (.reg R11),
  ADOXQ (.reg CX) (.reg R12),
  ADOXQ (.reg DX) (.reg R13),
  ADOXQ (.reg AX) (.reg R14),
  XORQ (.reg R15) (.reg R15),
  MOVQ (.mem SI 6) (.reg AX),
  MOVQ (.mem SI 7) (.reg DX),
  MOVQ (.mem SI 8) (.reg BX),
  ADDQ (.mem DI 9) (.reg AX),
  ADCQ (.mem DI 10) (.reg DX),
  ADCQ (.mem DI 11) (.reg BX),
  MOVQ (.reg AX) (.mem DI 9),
  MOVQ (.reg DX) (.mem DI 10),
  MOVQ (.reg BX) (.mem DI 11),
  ADCQ (.mem DI 12) (.reg BP),
  ADCQ (.mem DI 13) (.reg R8),
  ADCQ (.mem DI 14) (.reg R9),
  ADCQ (.mem DI 15) (.reg R10),
  ADCQ (.mem DI 16) (.reg R11),
  ADCQ (.mem DI 17) (.reg R12),
  ADCQ (.mem DI 18) (.reg R13),
  ADCQ (.mem DI 19) (.reg R14),
  ADCQ (.mem DI 20) (.reg R15),
  MOVQ (.reg BP) (.mem SI 0),
  MOVQ (.reg R8) (.mem DI 13),
  MOVQ (.reg R9) (.mem DI 14),
  MOVQ (.reg R10) (.mem DI 15),
  MOVQ (.reg R11) (.mem DI 16),
  MOVQ (.reg R12) (.mem DI 17),
  MOVQ (.reg R13) (.mem DI 18),
  MOVQ (.reg R14) (.mem DI 19),
  MOVQ (.reg R15) (.mem DI 20),
  MOVQ (.mem DI 21) (.reg R12),
  MOVQ (.mem DI 22) (.reg R13),
  MOVQ (.mem DI 23) (.reg R14),
  ADCQ (.imm 0) (.reg R12),
  ADCQ (.imm 0) (.reg R13),
  ADCQ (.imm 0) (.reg R14),
  MOVQ (.reg R12) (.mem DI 21),
  MOVQ (.reg R13) (.mem DI 22),
  MOVQ (.reg R14) (.mem DI 23),
  MOVQ (.mem DI 8) (.reg DX),
  MULXQ (.glob 2 5) (.reg R9) (.reg R8),
  MULXQ (.glob 2 6) (.reg R10) (.reg R13),
  MOVQ (.reg R9) (.mem SI 6),
  XORQ (.reg AX) (.reg AX),
  MULXQ (.glob 2 7) (.reg R12) (.reg R14),
  ADOXQ (.reg R10) (.reg R8),
  ADOXQ (.reg R12) (.reg R13),
  MULXQ (.glob 2 8) (.reg R10) (.reg R9),
  ADOXQ (.reg R10) (.reg R14),
  MULXQ (.glob 2 9) (.reg R11) (.reg R12),
  ADOXQ (.reg R11) (.reg R9),
  MULXQ (.glob 2 10) (.reg BP) (.reg R10),
  ADOXQ (.reg BP) (.reg R12),
  MULXQ (.glob 2 11) (.reg BX) (.reg R11),
  ADOXQ (.reg BX) (.reg R10),
  ADOXQ (.reg AX) (.reg R11),
  MOVQ (.mem DI 9) (.reg DX),
  MULXQ (.glob 2 5) (.reg BP) (.reg BX),
  XORQ (.reg AX) (.reg AX),
  ADCXQ (.reg BP) (.reg R8),
  MOVQ (.reg R8) (.mem SI 7),
  ADCXQ (.reg BX) (.reg R13),
  MULXQ (.glob 2 6) (.reg BX) (.reg BP),
  ADOXQ (.reg BX) (.reg R13),
  ADCXQ (.reg BP) (.reg R14),
  MULXQ (.glob 2 7) (.reg BX) (.reg R8),
  ADOXQ (.reg BX) (.reg R14),
  ADCXQ (.reg R9) (.reg R8),
  MULXQ (.glob 2 8) (.reg BP) (.reg R9),
  ADCXQ (.reg R12) (.reg R9),
  MULXQ (.glob 2 9) (.reg BX) (.reg R12),
  ADCXQ (.reg R12) (.reg R10),
  MULXQ (.glob 2 10) (.reg CX) (.reg R12),
  ADCXQ (.reg R12) (.reg R11),
  MULXQ (.glob 2 11) (.reg DX) (.reg R12),
  ADCXQ (.reg AX) (.reg R12),
  ADOXQ (.reg BP) (.reg R8),
  ADOXQ (.reg BX) (.reg R9),
  ADOXQ (.reg CX) (.reg R10),
  ADOXQ (.reg DX) (.reg R11),
  ADOXQ (.reg AX) (.reg R12),
  MOVQ (.mem DI 10) (.reg DX),
  MULXQ (.glob 2 5) (.reg BP) (.reg BX),
  XORQ (.reg AX) (.reg AX),
  ADCXQ (.reg BP) (.reg R13),
  MOVQ (.reg R13) (.mem SI 8),
  ADCXQ (.reg BX) (.reg R14),
  MULXQ (.glob 2 6) (.reg BP) (.reg BX),
  ADOXQ (.reg BP) (.reg R14),
  ADCXQ (.reg BX) (.reg R8),
  MULXQ (.glob 2 7) (.reg BX) (.reg R13),
  ADOXQ (.reg BX) (.reg R8),
  ADCXQ (.reg R13) (.reg R9),
  MULXQ (.glob 2 8) (.reg BP) (.reg R13),
  ADCXQ (.reg R13) (.reg R10),
  MULXQ (.glob 2 9) (.reg BX) (.reg R13),
  ADCXQ (.reg R13) (.reg R11),
  MULXQ (.glob 2 10) (.reg CX) (.reg R13),
  ADCXQ (.reg R13) (.reg R12),
  MULXQ (.glob 2 11) (.reg DX) (.reg R13),
  ADCXQ (.reg AX) (.reg R13),
  ADOXQ (.reg BP) (.reg R9),
  ADOXQ (.reg BX) (.reg R10),
  ADOXQ (.reg CX) (.reg R11),
  ADOXQ (.reg DX) (.reg R12),
  ADOXQ (.reg AX) (.reg R13),
  MOVQ (.mem DI 11) (.reg DX),
  MULXQ (.glob 2 5) (.reg BP) (.reg BX),
  XORQ (.reg AX) (.reg AX),
  ADCXQ (.reg R14) (.reg BP),
  ADCXQ (.reg BX) (.reg R8),
  MULXQ (.glob 2 6) (.reg R15) (.reg BX),
  ADOXQ (.reg R15) (.reg R8),
  ADCXQ (.reg BX) (.reg R9),
  MULXQ (.glob 2 7) (.reg BX) (.reg R14),
  ADOXQ (.reg BX) (.reg R9),
  ADCXQ (.reg R14) (.reg R10),
  MULXQ (.glob 2 8) (.reg R15) (.reg R14),
  ADCXQ (.reg R14) (.reg R11),
  MULXQ (.glob 2 9) (.reg BX) (.reg R14),
  ADCXQ (.reg R14) (.reg R12),
  MULXQ (.glob 2 10) (.reg CX) (.reg R14),
  ADCXQ (.reg R14) (.reg R13),
  MULXQ (.glob 2 11) (.reg DX) (.reg R14),
  ADCXQ (.reg AX) (.reg R14),
  ADOXQ (.reg R15) (.reg R10),
  ADOXQ (.reg BX) (.reg R11),
  ADOXQ (.reg CX) (.reg R12),
  ADOXQ (.reg DX) (.reg R13),
  ADOXQ (.reg AX) (.reg R14),
  MOVQ (.mem SI 6) (.reg AX),
  MOVQ (.mem SI 7) (.reg DX),
  MOVQ (.mem SI 8) (.reg BX),
  ADDQ (.mem DI 13) (.reg AX),
  ADCQ (.mem DI 14) (.reg DX),
  ADCQ (.mem DI 15) (.reg BX),
  MOVQ (.reg AX) (.mem SI 1),
  MOVQ (.reg DX) (.mem SI 2),
  MOVQ (.reg BX) (.mem SI 3),
  ADCQ (.mem DI 16) (.reg BP),
  ADCQ (.mem DI 17) (.reg R8),
  ADCQ (.mem DI 18) (.reg R9),
  ADCQ (.mem DI 19) (.reg R10),
  ADCQ (.mem DI 20) (.reg R11),
  ADCQ (.mem DI 21) (.reg R12),
  ADCQ (.mem DI 22) (.reg R13),
  ADCQ (.mem DI 23) (.reg R14),
  MOVQ (.reg BP) (.mem SI 4),
  MOVQ (.reg R8) (.mem SI 5),
  MOVQ (.reg R9) (.mem SI 6),
  MOVQ (.reg R10) (.mem SI 7),
  MOVQ (.reg R11) (.mem SI 8),
  MOVQ (.reg R12) (.mem SI 9),
  MOVQ (.reg R13) (.mem SI 10),
  MOVQ (.reg R14) (.mem SI 11)
  ]

def rdc_adx : Routine := { code := rdc_adxCode, frame := 0, glob := [p1] }

/-- The code of `addP751` that runs on each kind of CPU. -/
def addOn : Cpu → Routine
  | .base => add
  | .bmi2 => add
  | .adx => add

/-- The code of `subP751` that runs on each kind of CPU. -/
def subOn : Cpu → Routine
  | .base => sub
  | .bmi2 => sub
  | .adx => sub

/-- The code of `adlP751` that runs on each kind of CPU. -/
def adlOn : Cpu → Routine
  | .base => adl
  | .bmi2 => adl
  | .adx => adl

/-- The code of `sulP751` that runs on each kind of CPU. -/
def sulOn : Cpu → Routine
  | .base => sul
  | .bmi2 => sul
  | .adx => sul

/-- The code of `modP751` that runs on each kind of CPU. -/
def modOn : Cpu → Routine
  | .base => mod
  | .bmi2 => mod
  | .adx => mod

/-- The code of `mulP751` that runs on each kind of CPU. -/
def mulOn : Cpu → Routine
  | .base => mul
  | .bmi2 => mul
  | .adx => mul

/-- The code of `rdcP751` that runs on each kind of CPU. -/
def rdcOn : Cpu → Routine
  | .base => rdc
  | .bmi2 => rdc_bmi2
  | .adx => rdc_adx

end Model.Asm751
