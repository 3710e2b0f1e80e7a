import Verif.Model.GoBuild

/-!
Generated by gen/gobuild.py from the non-test .go and .s files of /repo.  `head`: the lines up to the first that is neither blank nor a comment
(comments without a plus sign shortened to //); `defs`: names declared at top level (methods as Type_of_Method); `bare`: functions declared
without body; `text`: symbols of the assembly; `imports`: directories of this module it imports; `uses`: names of this module, declared in
another file, that it refers to, with their directories.  Names and directories are numbers, one for each.
An identifier counts as used if it occurs anywhere in the file, so a local variable of the same name counts too.
-/
namespace Model.GoBuild
set_option maxRecDepth 20000

/-! directories -/
def d_dh : Nat := 0
def d_dh_csidh : Nat := 1
def d_dh_sidh : Nat := 2
def d_dh_sidh_common : Nat := 3
def d_dh_sidh_internal : Nat := 4
def d_dh_sidh_internal_p434 : Nat := 5
def d_dh_sidh_internal_p503 : Nat := 6
def d_dh_sidh_internal_p751 : Nat := 7
def d_dh_sidh_internal_templates : Nat := 8
def d_drbg : Nat := 9
def d_drbg_internal_aes : Nat := 10
def d_hash_sha3 : Nat := 11
def d_hash_sm3 : Nat := 12
def d_kem_mkem : Nat := 13
def d_kem_mkem_cmd : Nat := 14
def d_utils : Nat := 15

/-- what the directories are called -/
def dirNames : List (Nat × String) :=
  [(d_dh, "dh"), (d_dh_csidh, "dh/csidh"), (d_dh_sidh, "dh/sidh"), (d_dh_sidh_common, "dh/sidh/common"), (d_dh_sidh_internal, "dh/sidh/internal"), (d_dh_sidh_internal_p434, "dh/sidh/internal/p434"), (d_dh_sidh_internal_p503, "dh/sidh/internal/p503"), (d_dh_sidh_internal_p751, "dh/sidh/internal/p751"), (d_dh_sidh_internal_templates, "dh/sidh/internal/templates"), (d_drbg, "drbg"), (d_drbg_internal_aes, "drbg/internal/aes"), (d_hash_sha3, "hash/sha3"), (d_hash_sm3, "hash/sm3"), (d_kem_mkem, "kem/mkem"), (d_kem_mkem_cmd, "kem/mkem/cmd"), (d_utils, "utils")]

/-! names -/
def n_AES : Nat := 0
def n_AES_of_BlockSize : Nat := 1
def n_AES_of_Decrypt : Nat := 2
def n_AES_of_Encrypt : Nat := 3
def n_AES_of_SetKey : Nat := 4
def n_AESAsm : Nat := 5
def n_AESAsm_of_BlockSize : Nat := 6
def n_AESAsm_of_Decrypt : Nat := 7
def n_AESAsm_of_Encrypt : Nat := 8
def n_AESAsm_of_SetKey : Nat := 9
def n_AnyOverlap : Nat := 10
def n_BlockLen : Nat := 11
def n_BlockSize : Nat := 12
def n_BytesToFp2 : Nat := 13
def n_CalcAplus2Over4 : Nat := 14
def n_CalcCurveParamsEquiv3 : Nat := 15
def n_CalcCurveParamsEquiv4 : Nat := 16
def n_Cpick : Nat := 17
def n_CtrDrbg : Nat := 18
def n_CtrDrbg_of_Init : Nat := 19
def n_CtrDrbg_of_Read : Nat := 20
def n_CtrDrbg_of_ReadWithAdditionalData : Nat := 21
def n_CtrDrbg_of_Reseed : Nat := 22
def n_CtrDrbg_of_inc : Nat := 23
def n_CtrDrbg_of_update : Nat := 24
def n_CurveCoefficientsEquiv : Nat := 25
def n_DeriveSecret : Nat := 26
def n_DeriveSecretA : Nat := 27
def n_DeriveSecretB : Nat := 28
def n_DomainParams : Nat := 29
def n_ErrWriteAfterRead : Nat := 30
def n_Fp : Nat := 31
def n_Fp2 : Nat := 32
def n_Fp2Batch3Inv : Nat := 33
def n_Fp2ToBytes : Nat := 34
def n_Fp434 : Nat := 35
def n_Fp503 : Nat := 36
def n_Fp751 : Nat := 37
def n_FpMaxWords : Nat := 38
def n_FpWords : Nat := 39
def n_FpX2 : Nat := 40
def n_FromMontgomery : Nat := 41
def n_G1 : Nat := 42
def n_G2 : Nat := 43
def n_G3 : Nat := 44
def n_GeneratePrivateKey : Nat := 45
def n_GeneratePublicKey : Nat := 46
def n_HasADXandBMI2 : Nat := 47
def n_HasBMI2 : Nat := 48
def n_IAES : Nat := 49
def n_InexactOverlap : Nat := 50
def n_Jinvariant : Nat := 51
def n_KEM : Nat := 52
def n_KEM_of_Allocate : Nat := 53
def n_KEM_of_CiphertextSize : Nat := 54
def n_KEM_of_Decapsulate : Nat := 55
def n_KEM_of_Encapsulate : Nat := 56
def n_KEM_of_KemSize : Nat := 57
def n_KEM_of_PublicKeySize : Nat := 58
def n_KEM_of_Reset : Nat := 59
def n_KEM_of_SharedSecretSize : Nat := 60
def n_KEM_of_decrypt : Nat := 61
def n_KEM_of_encrypt : Nat := 62
def n_KEM_of_generateCiphertext : Nat := 63
def n_KEMp434 : Nat := 64
def n_KEMp503 : Nat := 65
def n_KEMp751 : Nat := 66
def n_Key : Nat := 67
def n_Key_of_Init : Nat := 68
def n_Key_of_Variant : Nat := 69
def n_KeyLen : Nat := 70
def n_KeySizeError : Nat := 71
def n_KeySizeError_of_Error : Nat := 72
def n_KeyVariant : Nat := 73
def n_KeyVariantSidhA : Nat := 74
def n_KeyVariantSidhB : Nat := 75
def n_KeyVariantSike : Nat := 76
def n_MaxCiphertextBsz : Nat := 77
def n_MaxMsgBsz : Nat := 78
def n_MaxPublicKeySz : Nat := 79
def n_MaxSharedSecretBsz : Nat := 80
def n_MaxSidhPrivateKeyBsz : Nat := 81
def n_MaxSikePrivateKeyBsz : Nat := 82
def n_MessgaeTest : Nat := 83
def n_MultiKEM : Nat := 84
def n_MultiKEM_of_Allocate : Nat := 85
def n_MultiKEM_of_Decapsulate : Nat := 86
def n_MultiKEM_of_Encapsulate : Nat := 87
def n_MultiKEM_of_NewPrivateKey : Nat := 88
def n_MultiKEM_of_NewPublicKey : Nat := 89
def n_MultiPKE : Nat := 90
def n_MultiPKE_of_Allocate : Nat := 91
def n_MultiPKE_of_Encrypt : Nat := 92
def n_New : Nat := 93
def n_New224 : Nat := 94
def n_New256 : Nat := 95
def n_New384 : Nat := 96
def n_New512 : Nat := 97
def n_NewCShake128 : Nat := 98
def n_NewCShake256 : Nat := 99
def n_NewCipher : Nat := 100
def n_NewCtrDrbg : Nat := 101
def n_NewPrivateKey : Nat := 102
def n_NewPublicKey : Nat := 103
def n_NewShake128 : Nat := 104
def n_NewShake256 : Nat := 105
def n_NewSike434 : Nat := 106
def n_NewSike503 : Nat := 107
def n_NewSike751 : Nat := 108
def n_P434 : Nat := 109
def n_P434R2 : Nat := 110
def n_P434p1 : Nat := 111
def n_P434p1Zeros : Nat := 112
def n_P434x2 : Nat := 113
def n_P503 : Nat := 114
def n_P503R2 : Nat := 115
def n_P503p1 : Nat := 116
def n_P503p1Zeros : Nat := 117
def n_P503p1s8 : Nat := 118
def n_P503x2 : Nat := 119
def n_P751 : Nat := 120
def n_P751R2 : Nat := 121
def n_P751p1 : Nat := 122
def n_P751p1Zeros : Nat := 123
def n_P751x2 : Nat := 124
def n_PKE : Nat := 125
def n_PKE_of_Allocate : Nat := 126
def n_PKE_of_Dec : Nat := 127
def n_PKE_of_Enc : Nat := 128
def n_Params : Nat := 129
def n_Pow2k : Nat := 130
def n_Pow3k : Nat := 131
def n_PrivateKey : Nat := 132
def n_PrivateKey_of_DeriveSecret : Nat := 133
def n_PrivateKey_of_Export : Nat := 134
def n_PrivateKey_of_Generate : Nat := 135
def n_PrivateKey_of_GeneratePublicKey : Nat := 136
def n_PrivateKey_of_Import : Nat := 137
def n_PrivateKey_of_Init : Nat := 138
def n_PrivateKey_of_SharedSecretSize : Nat := 139
def n_PrivateKey_of_Size : Nat := 140
def n_PrivateKeySize : Nat := 141
def n_ProjectiveCurveParameters : Nat := 142
def n_ProjectivePoint : Nat := 143
def n_PublicKey : Nat := 144
def n_PublicKey_of_Export : Nat := 145
def n_PublicKey_of_Import : Nat := 146
def n_PublicKey_of_Size : Nat := 147
def n_PublicKeyGenA : Nat := 148
def n_PublicKeyGenB : Nat := 149
def n_PublicKeySize : Nat := 150
def n_PublicKeySz : Nat := 151
def n_RecoverCoordinateA : Nat := 152
def n_RecoverCurveCoefficients3 : Nat := 153
def n_RecoverCurveCoefficients4 : Nat := 154
def n_Register : Nat := 155
def n_SHA3_224 : Nat := 156
def n_SHA3_256 : Nat := 157
def n_SHA3_384 : Nat := 158
def n_SHA3_512 : Nat := 159
def n_SHAKE128 : Nat := 160
def n_SHAKE256 : Nat := 161
def n_ScalarMul3Pt : Nat := 162
def n_SeedLen : Nat := 163
def n_Sha3Desc : Nat := 164
def n_ShakeHash : Nat := 165
def n_ShakeSum128 : Nat := 166
def n_ShakeSum256 : Nat := 167
def n_SharedSecretSize : Nat := 168
def n_SharedSecretSz : Nat := 169
def n_SidhParams : Nat := 170
def n_Size : Nat := 171
def n_ToMontgomery : Nat := 172
def n_Validate : Nat := 173
def n_X86 : Nat := 174
def n_add : Nat := 175
def n_addP434 : Nat := 176
def n_addP503 : Nat := 177
def n_addP751 : Nat := 178
def n_addRdc : Nat := 179
def n_adlP434 : Nat := 180
def n_adlP503 : Nat := 181
def n_adlP751 : Nat := 182
def n_alg : Nat := 183
def n_benchFunc : Nat := 184
def n_bench_CSIDH_PKE : Nat := 185
def n_bench_CSIDH_mPKE : Nat := 186
def n_bench_SIKE_KEM : Nat := 187
def n_bench_SIKE_mKEM : Nat := 188
def n_bitn : Nat := 189
def n_bytepad : Nat := 190
def n_ch : Nat := 191
def n_ciphertext : Nat := 192
def n_coeff : Nat := 193
def n_cofactorMul : Nat := 194
def n_copyOut : Nat := 195
def n_copyOutGeneric : Nat := 196
def n_copyOutUnaligned : Nat := 197
def n_count_cycles : Nat := 198
def n_cpuid : Nat := 199
def n_cshakeState : Nat := 200
def n_cshakeState_of_Clone : Nat := 201
def n_cshakeState_of_Reset : Nat := 202
def n_cswap : Nat := 203
def n_cswap512 : Nat := 204
def n_cswapP434 : Nat := 205
def n_cswapP503 : Nat := 206
def n_cswapP751 : Nat := 207
def n_cswappoint : Nat := 208
def n_ct : Nat := 209
def n_ctIsNonZero64 : Nat := 210
def n_ctPick64 : Nat := 211
def n_decryptBlockAsm : Nat := 212
def n_decryptBlockGo : Nat := 213
def n_digest : Nat := 214
def n_digest_of_BlockSize : Nat := 215
def n_digest_of_Init : Nat := 216
def n_digest_of_Reset : Nat := 217
def n_digest_of_Size : Nat := 218
def n_digest_of_Sum : Nat := 219
def n_digest_of_Write : Nat := 220
def n_digest_of_compress : Nat := 221
def n_encryptBlockAsm : Nat := 222
def n_encryptBlockGo : Nat := 223
def n_expMax : Nat := 224
def n_expandKey : Nat := 225
def n_expandKeyAsm : Nat := 226
def n_expandKeyGo : Nat := 227
def n_four : Nat := 228
def n_fourSqrtP : Nat := 229
def n_fp : Nat := 230
def n_fp_of_equal : Nat := 231
def n_fp_of_isNonQuadRes : Nat := 232
def n_fp_of_isZero : Nat := 233
def n_fpRngGen : Nat := 234
def n_fpRngGen_of_randFp : Nat := 235
def n_gen : Nat := 236
def n_groupAction : Nat := 237
def n_half : Nat := 238
def n_hasADXandBMI2 : Nat := 239
def n_hasBMI2 : Nat := 240
def n_init : Nat := 241
def n_init0 : Nat := 242
def n_init1 : Nat := 243
def n_init2 : Nat := 244
def n_init3 : Nat := 245
def n_init4 : Nat := 246
def n_init5 : Nat := 247
def n_init6 : Nat := 248
def n_init7 : Nat := 249
def n_init_sike : Nat := 250
def n_inv : Nat := 251
def n_isLess : Nat := 252
def n_isogeny3 : Nat := 253
def n_isogeny3_of_EvaluatePoint : Nat := 254
def n_isogeny3_of_GenerateCurve : Nat := 255
def n_isogeny4 : Nat := 256
def n_isogeny4_of_EvaluatePoint : Nat := 257
def n_isogeny4_of_GenerateCurve : Nat := 258
def n_keccakF1600 : Nat := 259
def n_leftEncode : Nat := 260
def n_limbBitSize : Nat := 261
def n_limbByteSize : Nat := 262
def n_loadBe32 : Nat := 263
def n_mKEMp434 : Nat := 264
def n_mKEMp503 : Nat := 265
def n_mKEMp751 : Nat := 266
def n_mPKE : Nat := 267
def n_main : Nat := 268
def n_maj : Nat := 269
def n_maxRate : Nat := 270
def n_min : Nat := 271
def n_modExpRdc512 : Nat := 272
def n_modExpRdc64 : Nat := 273
def n_modExpRdcCommon : Nat := 274
def n_modP434 : Nat := 275
def n_modP503 : Nat := 276
def n_modP751 : Nat := 277
def n_montEval : Nat := 278
def n_mul : Nat := 279
def n_mul512 : Nat := 280
def n_mul576 : Nat := 281
def n_mulBmiAsm : Nat := 282
def n_mulGeneric : Nat := 283
def n_mulP : Nat := 284
def n_mulP434 : Nat := 285
def n_mulP503 : Nat := 286
def n_mulP751 : Nat := 287
def n_mulRdc : Nat := 288
def n_nLoops : Nat := 289
def n_nRecipients : Nat := 290
def n_newCShake : Nat := 291
def n_numWords : Nat := 292
def n_one : Nat := 293
def n_opt_arm : Nat := 294
def n_p : Nat := 295
def n_p0 : Nat := 296
def n_p1 : Nat := 297
def n_p34 : Nat := 298
def n_pMin1 : Nat := 299
def n_pMin1By2 : Nat := 300
def n_pNegInv : Nat := 301
def n_params : Nat := 302
def n_pbits : Nat := 303
def n_point : Nat := 304
def n_poly : Nat := 305
def n_powx : Nat := 306
def n_primeCount : Nat := 307
def n_primes : Nat := 308
def n_r1 : Nat := 309
def n_r2 : Nat := 310
def n_rate128 : Nat := 311
def n_rate256 : Nat := 312
def n_rc : Nat := 313
def n_rdcP434 : Nat := 314
def n_rdcP503 : Nat := 315
def n_rdcP751 : Nat := 316
def n_rng : Nat := 317
def n_rotl32 : Nat := 318
def n_rotw : Nat := 319
def n_sPKE : Nat := 320
def n_sbox0 : Nat := 321
def n_sbox1 : Nat := 322
def n_sfxCShake : Nat := 323
def n_sfxShake : Nat := 324
def n_sidhParams : Nat := 325
def n_six : Nat := 326
def n_sm3e : Nat := 327
def n_spongeDesc : Nat := 328
def n_sqr : Nat := 329
def n_ss : Nat := 330
def n_state : Nat := 331
def n_state_of_BlockSize : Nat := 332
def n_state_of_Clone : Nat := 333
def n_state_of_Read : Nat := 334
def n_state_of_Reset : Nat := 335
def n_state_of_Size : Nat := 336
def n_state_of_Sum : Nat := 337
def n_state_of_Write : Nat := 338
def n_state_of_digest : Nat := 339
def n_state_of_finalize_sha3 : Nat := 340
def n_storageBuf : Nat := 341
def n_storageBuf_of_asBytes : Nat := 342
def n_store32Be : Nat := 343
def n_store64Be : Nat := 344
def n_sub : Nat := 345
def n_sub512 : Nat := 346
def n_subP434 : Nat := 347
def n_subP503 : Nat := 348
def n_subP751 : Nat := 349
def n_subRdc : Nat := 350
def n_subw : Nat := 351
def n_sulP434 : Nat := 352
def n_sulP503 : Nat := 353
def n_sulP751 : Nat := 354
def n_td0 : Nat := 355
def n_td1 : Nat := 356
def n_td2 : Nat := 357
def n_td3 : Nat := 358
def n_te0 : Nat := 359
def n_te1 : Nat := 360
def n_te2 : Nat := 361
def n_te3 : Nat := 362
def n_testPKS_SIDHp434 : Nat := 363
def n_testPKS_SIDHp503 : Nat := 364
def n_testPKS_SIDHp751 : Nat := 365
def n_testPKS_csidh : Nat := 366
def n_testSKS_csidh : Nat := 367
def n_traverseTreePublicKeyA : Nat := 368
def n_traverseTreePublicKeyB : Nat := 369
def n_traverseTreeSharedKeyA : Nat := 370
def n_traverseTreeSharedKeyB : Nat := 371
def n_two : Nat := 372
def n_twoNeg : Nat := 373
def n_x86 : Nat := 374
def n_xAdd : Nat := 375
def n_xDbl : Nat := 376
def n_xDblAdd : Nat := 377
def n_xDbladd : Nat := 378
def n_xIso : Nat := 379
def n_xMul : Nat := 380
def n_xorImplementationUnaligned : Nat := 381
def n_xorIn : Nat := 382
def n_xorInGeneric : Nat := 383
def n_xorInUnaligned : Nat := 384

/-- dh/doc.go -/
def f_dh_doc_go : File where
  name := "doc.go"
  head := ["package dh"]
  defs := []
  bare := []
  text := []
  imports := []
  uses := []

/-- dh/csidh/consts.go -/
def f_dh_csidh_consts_go : File where
  name := "consts.go"
  head := ["package csidh"]
  defs := [n_pbits, n_primeCount, n_expMax, n_limbBitSize, n_limbByteSize, n_numWords, n_PrivateKeySize, n_PublicKeySize, n_SharedSecretSize, n_primes, n_p, n_one, n_two, n_twoNeg, n_four, n_fourSqrtP, n_pNegInv, n_pMin1By2, n_pMin1]
  bare := []
  text := []
  imports := []
  uses := [(d_dh_csidh, n_fp)]

/-- dh/csidh/csidh.go -/
def f_dh_csidh_csidh_go : File where
  name := "csidh.go"
  head := ["package csidh"]
  defs := [n_fp, n_point, n_coeff, n_fpRngGen, n_PublicKey, n_PrivateKey, n_fpRngGen_of_randFp, n_cofactorMul, n_groupAction, n_PrivateKey_of_Import, n_PrivateKey_of_Export, n_GeneratePrivateKey, n_PublicKey_of_Import, n_PublicKey_of_Export, n_GeneratePublicKey, n_Validate, n_DeriveSecret]
  bare := []
  text := []
  imports := []
  uses := [(d_dh_csidh, n_PrivateKeySize), (d_dh_csidh, n_expMax), (d_dh_csidh, n_fourSqrtP), (d_dh_csidh, n_isLess), (d_dh_csidh, n_limbBitSize), (d_dh_csidh, n_limbByteSize), (d_dh_csidh, n_modExpRdc512), (d_dh_csidh, n_montEval), (d_dh_csidh, n_mul512), (d_dh_csidh, n_mulRdc), (d_dh_csidh, n_numWords), (d_dh_csidh, n_one), (d_dh_csidh, n_p), (d_dh_csidh, n_pMin1), (d_dh_csidh, n_pbits), (d_dh_csidh, n_primeCount), (d_dh_csidh, n_primes), (d_dh_csidh, n_two), (d_dh_csidh, n_twoNeg), (d_dh_csidh, n_xDbl), (d_dh_csidh, n_xIso), (d_dh_csidh, n_xMul)]

/-- dh/csidh/curve.go -/
def f_dh_csidh_curve_go : File where
  name := "curve.go"
  head := ["package csidh"]
  defs := [n_xAdd, n_xDbl, n_xDblAdd, n_cswappoint, n_xMul, n_xIso, n_montEval]
  bare := []
  text := []
  imports := []
  uses := [(d_dh_csidh, n_addRdc), (d_dh_csidh, n_coeff), (d_dh_csidh, n_cswap512), (d_dh_csidh, n_four), (d_dh_csidh, n_fp), (d_dh_csidh, n_modExpRdc64), (d_dh_csidh, n_mulRdc), (d_dh_csidh, n_one), (d_dh_csidh, n_point), (d_dh_csidh, n_subRdc)]

/-- dh/csidh/doc.go -/
def f_dh_csidh_doc_go : File where
  name := "doc.go"
  head := ["//", "//", "//", "//", "//", "//", "//", "//", "//", "//", "package csidh"]
  defs := []
  bare := []
  text := []
  imports := []
  uses := []

/-- dh/csidh/fp511.go -/
def f_dh_csidh_fp511_go : File where
  name := "fp511.go"
  head := ["package csidh"]
  defs := [n_hasBMI2, n_hasADXandBMI2, n_ctPick64, n_ctIsNonZero64, n_mulGeneric, n_isLess, n_addRdc, n_sub512, n_subRdc, n_modExpRdcCommon, n_modExpRdc512, n_modExpRdc64, n_fp_of_isNonQuadRes, n_fp_of_isZero, n_fp_of_equal]
  bare := []
  text := []
  imports := []
  uses := [(d_dh_csidh, n_fp), (d_dh_csidh, n_mul576), (d_dh_csidh, n_mulRdc), (d_dh_csidh, n_numWords), (d_dh_csidh, n_one), (d_dh_csidh, n_p), (d_dh_csidh, n_pMin1By2), (d_dh_csidh, n_pNegInv)]

/-- dh/csidh/fp511_amd64.go -/
def f_dh_csidh_fp511_amd64_go : File where
  name := "fp511_amd64.go"
  head := ["// +build amd64,!noasm", "", "package csidh"]
  defs := [n_mulRdc]
  bare := [n_mul512, n_mul576, n_cswap512, n_mulBmiAsm]
  text := []
  imports := []
  uses := [(d_dh_csidh, n_ctPick64), (d_dh_csidh, n_fp), (d_dh_csidh, n_hasADXandBMI2), (d_dh_csidh, n_mulGeneric), (d_dh_csidh, n_p)]

/-- dh/csidh/fp511_amd64.s -/
def f_dh_csidh_fp511_amd64_s : File where
  name := "fp511_amd64.s"
  head := ["// +build amd64,!noasm", "", "#include \"textflag.h\""]
  defs := []
  bare := []
  text := [n_mul512, n_mul576, n_cswap512, n_mulBmiAsm]
  imports := []
  uses := [(d_dh_csidh, n_hasBMI2), (d_dh_csidh, n_pNegInv)]

/-- dh/csidh/fp511_generic.go -/
def f_dh_csidh_fp511_generic_go : File where
  name := "fp511_generic.go"
  head := ["// +build noasm arm64", "", "package csidh"]
  defs := [n_mul512, n_mul576, n_cswap512, n_mulRdc]
  bare := []
  text := []
  imports := []
  uses := [(d_dh_csidh, n_ctPick64), (d_dh_csidh, n_fp), (d_dh_csidh, n_mulGeneric), (d_dh_csidh, n_numWords), (d_dh_csidh, n_p)]

/-- dh/sidh/doc.go -/
def f_dh_sidh_doc_go : File where
  name := "doc.go"
  head := ["//", "//", "//", "//", "//", "//", "//", "//", "//", "//", "package sidh"]
  defs := []
  bare := []
  text := []
  imports := []
  uses := []

/-- dh/sidh/sidh.go -/
def f_dh_sidh_sidh_go : File where
  name := "sidh.go"
  head := ["package sidh"]
  defs := [n_KeyVariant, n_Key, n_PublicKey, n_PrivateKey, n_Fp434, n_Fp503, n_Fp751, n_KeyVariantSidhA, n_KeyVariantSidhB, n_KeyVariantSike, n_Key_of_Variant, n_NewPublicKey, n_PublicKey_of_Import, n_PublicKey_of_Export, n_PublicKey_of_Size, n_NewPrivateKey, n_PrivateKey_of_Export, n_PrivateKey_of_Size, n_PrivateKey_of_SharedSecretSize, n_PrivateKey_of_Import, n_PrivateKey_of_Generate, n_PrivateKey_of_GeneratePublicKey, n_PrivateKey_of_DeriveSecret, n_Key_of_Init, n_PrivateKey_of_Init, n_GeneratePrivateKey, n_GeneratePublicKey, n_DeriveSecret]
  bare := []
  text := []
  imports := [d_dh_sidh_common, d_dh_sidh_internal_p434, d_dh_sidh_internal_p503, d_dh_sidh_internal_p751]
  uses := [(d_dh_sidh_common, n_BytesToFp2), (d_dh_sidh_common, n_DomainParams), (d_dh_sidh_common, n_Fp2), (d_dh_sidh_common, n_Fp2ToBytes), (d_dh_sidh_common, n_Fp434), (d_dh_sidh_common, n_Fp503), (d_dh_sidh_common, n_Fp751), (d_dh_sidh_common, n_Params), (d_dh_sidh_common, n_SidhParams), (d_dh_sidh_internal_p434, n_DeriveSecretA), (d_dh_sidh_internal_p434, n_DeriveSecretB), (d_dh_sidh_internal_p434, n_FromMontgomery), (d_dh_sidh_internal_p434, n_PublicKeyGenA), (d_dh_sidh_internal_p434, n_PublicKeyGenB), (d_dh_sidh_internal_p434, n_ToMontgomery), (d_dh_sidh_internal_p503, n_DeriveSecretA), (d_dh_sidh_internal_p503, n_DeriveSecretB), (d_dh_sidh_internal_p503, n_FromMontgomery), (d_dh_sidh_internal_p503, n_PublicKeyGenA), (d_dh_sidh_internal_p503, n_PublicKeyGenB), (d_dh_sidh_internal_p503, n_ToMontgomery), (d_dh_sidh_internal_p751, n_DeriveSecretA), (d_dh_sidh_internal_p751, n_DeriveSecretB), (d_dh_sidh_internal_p751, n_FromMontgomery), (d_dh_sidh_internal_p751, n_PublicKeyGenA), (d_dh_sidh_internal_p751, n_PublicKeyGenB), (d_dh_sidh_internal_p751, n_ToMontgomery)]

/-- dh/sidh/sike.go -/
def f_dh_sidh_sike_go : File where
  name := "sike.go"
  head := ["package sidh"]
  defs := [n_KEM, n_NewSike434, n_NewSike503, n_NewSike751, n_KEM_of_Allocate, n_KEM_of_Encapsulate, n_KEM_of_Decapsulate, n_KEM_of_Reset, n_KEM_of_CiphertextSize, n_KEM_of_SharedSecretSize, n_KEM_of_generateCiphertext, n_KEM_of_encrypt, n_KEM_of_decrypt]
  bare := []
  text := []
  imports := [d_dh_sidh_common, d_hash_sha3]
  uses := [(d_dh_sidh, n_Fp434), (d_dh_sidh, n_Fp503), (d_dh_sidh, n_Fp751), (d_dh_sidh, n_Key), (d_dh_sidh, n_KeyVariant), (d_dh_sidh, n_KeyVariantSidhA), (d_dh_sidh, n_KeyVariantSike), (d_dh_sidh, n_NewPrivateKey), (d_dh_sidh, n_NewPublicKey), (d_dh_sidh, n_PrivateKey), (d_dh_sidh, n_PublicKey), (d_dh_sidh_common, n_Cpick), (d_dh_sidh_common, n_MaxMsgBsz), (d_dh_sidh_common, n_MaxSharedSecretBsz), (d_dh_sidh_common, n_MaxSidhPrivateKeyBsz), (d_dh_sidh_common, n_Params), (d_dh_sidh_common, n_SidhParams), (d_hash_sha3, n_NewShake256), (d_hash_sha3, n_ShakeHash)]

/-- dh/sidh/common/doc.go -/
def f_dh_sidh_common_doc_go : File where
  name := "doc.go"
  head := ["//", "package common"]
  defs := []
  bare := []
  text := []
  imports := []
  uses := []

/-- dh/sidh/common/params.go -/
def f_dh_sidh_common_params_go : File where
  name := "params.go"
  head := ["package common"]
  defs := [n_sidhParams, n_Params, n_Register]
  bare := []
  text := []
  imports := []
  uses := [(d_dh_sidh_common, n_SidhParams)]

/-- dh/sidh/common/types.go -/
def f_dh_sidh_common_types_go : File where
  name := "types.go"
  head := ["package common"]
  defs := [n_FpMaxWords, n_MaxSidhPrivateKeyBsz, n_MaxSikePrivateKeyBsz, n_MaxMsgBsz, n_MaxSharedSecretBsz, n_MaxPublicKeySz, n_MaxCiphertextBsz, n_Fp503, n_Fp751, n_Fp434, n_Fp, n_FpX2, n_Fp2, n_DomainParams, n_SidhParams, n_CurveCoefficientsEquiv, n_ProjectivePoint, n_ProjectiveCurveParameters]
  bare := []
  text := []
  imports := []
  uses := []

/-- dh/sidh/common/utils.go -/
def f_dh_sidh_common_utils_go : File where
  name := "utils.go"
  head := ["package common"]
  defs := [n_Cpick, n_BytesToFp2, n_Fp2ToBytes]
  bare := []
  text := []
  imports := []
  uses := [(d_dh_sidh_common, n_Fp2)]

/-- dh/sidh/internal/doc.go -/
def f_dh_sidh_internal_doc_go : File where
  name := "doc.go"
  head := ["package sidh"]
  defs := []
  bare := []
  text := []
  imports := []
  uses := []

/-- dh/sidh/internal/p434/arith_amd64.s -/
def f_dh_sidh_internal_p434_arith_amd64_s : File where
  name := "arith_amd64.s"
  head := ["// +build amd64,!noasm", "", "#include \"textflag.h\""]
  defs := []
  bare := []
  text := [n_cswapP434, n_addP434, n_adlP434, n_subP434, n_sulP434, n_modP434, n_mulP434, n_rdcP434]
  imports := []
  uses := [(d_dh_sidh_internal_p434, n_HasADXandBMI2)]

/-- dh/sidh/internal/p434/arith_decl.go -/
def f_dh_sidh_internal_p434_arith_decl_go : File where
  name := "arith_decl.go"
  head := ["//", "//", "", "// +build amd64,!noasm", "", "package p434"]
  defs := []
  bare := [n_cswapP434, n_addP434, n_subP434, n_adlP434, n_sulP434, n_modP434, n_mulP434, n_rdcP434]
  text := []
  imports := [d_dh_sidh_common]
  uses := [(d_dh_sidh_common, n_Fp), (d_dh_sidh_common, n_FpX2)]

/-- dh/sidh/internal/p434/arith_generic.go -/
def f_dh_sidh_internal_p434_arith_generic_go : File where
  name := "arith_generic.go"
  head := ["//", "//", "", "// +build noasm,arm64 !amd64", "", "package p434"]
  defs := [n_addP434, n_subP434, n_cswapP434, n_rdcP434, n_mulP434, n_adlP434, n_modP434, n_sulP434]
  bare := []
  text := []
  imports := [d_dh_sidh_common]
  uses := [(d_dh_sidh_common, n_Fp), (d_dh_sidh_common, n_FpX2), (d_dh_sidh_internal_p434, n_FpWords), (d_dh_sidh_internal_p434, n_P434), (d_dh_sidh_internal_p434, n_P434p1), (d_dh_sidh_internal_p434, n_P434p1Zeros), (d_dh_sidh_internal_p434, n_P434x2)]

/-- dh/sidh/internal/p434/core.go -/
def f_dh_sidh_internal_p434_core_go : File where
  name := "core.go"
  head := ["//", "//", "", "package p434"]
  defs := [n_init, n_traverseTreePublicKeyA, n_traverseTreeSharedKeyA, n_traverseTreePublicKeyB, n_traverseTreeSharedKeyB, n_PublicKeyGenA, n_PublicKeyGenB, n_DeriveSecretA, n_DeriveSecretB]
  bare := []
  text := []
  imports := [d_dh_sidh_common]
  uses := [(d_dh_sidh_common, n_Fp2), (d_dh_sidh_common, n_Fp2ToBytes), (d_dh_sidh_common, n_ProjectiveCurveParameters), (d_dh_sidh_common, n_ProjectivePoint), (d_dh_sidh_internal_p434, n_CalcCurveParamsEquiv3), (d_dh_sidh_internal_p434, n_CalcCurveParamsEquiv4), (d_dh_sidh_internal_p434, n_Fp2Batch3Inv), (d_dh_sidh_internal_p434, n_FromMontgomery), (d_dh_sidh_internal_p434, n_HasADXandBMI2), (d_dh_sidh_internal_p434, n_Jinvariant), (d_dh_sidh_internal_p434, n_Pow2k), (d_dh_sidh_internal_p434, n_Pow3k), (d_dh_sidh_internal_p434, n_RecoverCoordinateA), (d_dh_sidh_internal_p434, n_RecoverCurveCoefficients3), (d_dh_sidh_internal_p434, n_RecoverCurveCoefficients4), (d_dh_sidh_internal_p434, n_ScalarMul3Pt), (d_dh_sidh_internal_p434, n_isogeny3), (d_dh_sidh_internal_p434, n_isogeny4), (d_dh_sidh_internal_p434, n_mul), (d_dh_sidh_internal_p434, n_params)]

/-- dh/sidh/internal/p434/curve.go -/
def f_dh_sidh_internal_p434_curve_go : File where
  name := "curve.go"
  head := ["//", "//", "", "package p434"]
  defs := [n_isogeny3, n_isogeny4, n_Jinvariant, n_RecoverCoordinateA, n_CalcCurveParamsEquiv3, n_CalcCurveParamsEquiv4, n_CalcAplus2Over4, n_RecoverCurveCoefficients3, n_RecoverCurveCoefficients4, n_xDbladd, n_Pow2k, n_Pow3k, n_Fp2Batch3Inv, n_ScalarMul3Pt, n_isogeny3_of_GenerateCurve, n_isogeny3_of_EvaluatePoint, n_isogeny4_of_GenerateCurve, n_isogeny4_of_EvaluatePoint]
  bare := []
  text := []
  imports := [d_dh_sidh_common]
  uses := [(d_dh_sidh_common, n_CurveCoefficientsEquiv), (d_dh_sidh_common, n_Fp2), (d_dh_sidh_common, n_ProjectiveCurveParameters), (d_dh_sidh_common, n_ProjectivePoint), (d_dh_sidh_internal_p434, n_add), (d_dh_sidh_internal_p434, n_cswap), (d_dh_sidh_internal_p434, n_inv), (d_dh_sidh_internal_p434, n_mul), (d_dh_sidh_internal_p434, n_params), (d_dh_sidh_internal_p434, n_sqr), (d_dh_sidh_internal_p434, n_sub)]

/-- dh/sidh/internal/p434/doc.go -/
def f_dh_sidh_internal_p434_doc_go : File where
  name := "doc.go"
  head := ["package p434"]
  defs := []
  bare := []
  text := []
  imports := []
  uses := []

/-- dh/sidh/internal/p434/fp2.go -/
def f_dh_sidh_internal_p434_fp2_go : File where
  name := "fp2.go"
  head := ["//", "//", "", "package p434"]
  defs := [n_mulP, n_p34, n_add, n_sub, n_mul, n_inv, n_sqr, n_cswap, n_ToMontgomery, n_FromMontgomery]
  bare := []
  text := []
  imports := [d_dh_sidh_common]
  uses := [(d_dh_sidh_common, n_Fp), (d_dh_sidh_common, n_Fp2), (d_dh_sidh_common, n_FpX2), (d_dh_sidh_internal_p434, n_P434R2), (d_dh_sidh_internal_p434, n_addP434), (d_dh_sidh_internal_p434, n_adlP434), (d_dh_sidh_internal_p434, n_cswapP434), (d_dh_sidh_internal_p434, n_modP434), (d_dh_sidh_internal_p434, n_mulP434), (d_dh_sidh_internal_p434, n_rdcP434), (d_dh_sidh_internal_p434, n_subP434), (d_dh_sidh_internal_p434, n_sulP434)]

/-- dh/sidh/internal/p434/params.go -/
def f_dh_sidh_internal_p434_params_go : File where
  name := "params.go"
  head := ["package p434"]
  defs := [n_FpWords, n_HasADXandBMI2, n_P434, n_P434x2, n_P434p1, n_P434R2, n_half, n_one, n_six, n_P434p1Zeros, n_params, n_init]
  bare := []
  text := []
  imports := [d_dh_sidh_common]
  uses := [(d_dh_sidh_common, n_DomainParams), (d_dh_sidh_common, n_Fp), (d_dh_sidh_common, n_Fp2), (d_dh_sidh_common, n_Fp434), (d_dh_sidh_common, n_ProjectiveCurveParameters), (d_dh_sidh_common, n_Register), (d_dh_sidh_common, n_SidhParams)]

/-- dh/sidh/internal/p503/arith_amd64.s -/
def f_dh_sidh_internal_p503_arith_amd64_s : File where
  name := "arith_amd64.s"
  head := ["// +build amd64,!noasm", "", "#include \"textflag.h\""]
  defs := []
  bare := []
  text := [n_modP503, n_cswapP503, n_addP503, n_subP503, n_mulP503, n_rdcP503, n_adlP503, n_sulP503]
  imports := []
  uses := [(d_dh_sidh_internal_p503, n_HasADXandBMI2), (d_dh_sidh_internal_p503, n_HasBMI2)]

/-- dh/sidh/internal/p503/arith_arm64.s -/
def f_dh_sidh_internal_p503_arith_arm64_s : File where
  name := "arith_arm64.s"
  head := ["// +build arm64,!noasm", "", "#include \"textflag.h\""]
  defs := []
  bare := []
  text := [n_cswapP503, n_addP503, n_subP503, n_adlP503, n_sulP503, n_mulP503, n_rdcP503, n_modP503]
  imports := []
  uses := []

/-- dh/sidh/internal/p503/arith_decl.go -/
def f_dh_sidh_internal_p503_arith_decl_go : File where
  name := "arith_decl.go"
  head := ["//", "//", "", "// +build amd64,!noasm arm64,!noasm", "", "package p503"]
  defs := []
  bare := [n_cswapP503, n_addP503, n_subP503, n_adlP503, n_sulP503, n_modP503, n_mulP503, n_rdcP503]
  text := []
  imports := [d_dh_sidh_common]
  uses := [(d_dh_sidh_common, n_Fp), (d_dh_sidh_common, n_FpX2)]

/-- dh/sidh/internal/p503/arith_generic.go -/
def f_dh_sidh_internal_p503_arith_generic_go : File where
  name := "arith_generic.go"
  head := ["//", "//", "", "// +build noasm !amd64,!arm64", "", "package p503"]
  defs := [n_addP503, n_subP503, n_cswapP503, n_rdcP503, n_mulP503, n_adlP503, n_modP503, n_sulP503]
  bare := []
  text := []
  imports := [d_dh_sidh_common]
  uses := [(d_dh_sidh_common, n_Fp), (d_dh_sidh_common, n_FpX2), (d_dh_sidh_internal_p503, n_FpWords), (d_dh_sidh_internal_p503, n_P503), (d_dh_sidh_internal_p503, n_P503p1), (d_dh_sidh_internal_p503, n_P503p1Zeros), (d_dh_sidh_internal_p503, n_P503x2)]

/-- dh/sidh/internal/p503/core.go -/
def f_dh_sidh_internal_p503_core_go : File where
  name := "core.go"
  head := ["//", "//", "", "package p503"]
  defs := [n_traverseTreePublicKeyA, n_traverseTreeSharedKeyA, n_traverseTreePublicKeyB, n_traverseTreeSharedKeyB, n_PublicKeyGenA, n_PublicKeyGenB, n_DeriveSecretA, n_DeriveSecretB]
  bare := []
  text := []
  imports := [d_dh_sidh_common]
  uses := [(d_dh_sidh_common, n_Fp2), (d_dh_sidh_common, n_Fp2ToBytes), (d_dh_sidh_common, n_ProjectiveCurveParameters), (d_dh_sidh_common, n_ProjectivePoint), (d_dh_sidh_internal_p503, n_CalcCurveParamsEquiv3), (d_dh_sidh_internal_p503, n_CalcCurveParamsEquiv4), (d_dh_sidh_internal_p503, n_Fp2Batch3Inv), (d_dh_sidh_internal_p503, n_FromMontgomery), (d_dh_sidh_internal_p503, n_Jinvariant), (d_dh_sidh_internal_p503, n_Pow2k), (d_dh_sidh_internal_p503, n_Pow3k), (d_dh_sidh_internal_p503, n_RecoverCoordinateA), (d_dh_sidh_internal_p503, n_RecoverCurveCoefficients3), (d_dh_sidh_internal_p503, n_RecoverCurveCoefficients4), (d_dh_sidh_internal_p503, n_ScalarMul3Pt), (d_dh_sidh_internal_p503, n_isogeny3), (d_dh_sidh_internal_p503, n_isogeny4), (d_dh_sidh_internal_p503, n_mul), (d_dh_sidh_internal_p503, n_params)]

/-- dh/sidh/internal/p503/curve.go -/
def f_dh_sidh_internal_p503_curve_go : File where
  name := "curve.go"
  head := ["//", "//", "", "package p503"]
  defs := [n_isogeny3, n_isogeny4, n_Jinvariant, n_RecoverCoordinateA, n_CalcCurveParamsEquiv3, n_CalcCurveParamsEquiv4, n_CalcAplus2Over4, n_RecoverCurveCoefficients3, n_RecoverCurveCoefficients4, n_xDbladd, n_Pow2k, n_Pow3k, n_Fp2Batch3Inv, n_ScalarMul3Pt, n_isogeny3_of_GenerateCurve, n_isogeny3_of_EvaluatePoint, n_isogeny4_of_GenerateCurve, n_isogeny4_of_EvaluatePoint]
  bare := []
  text := []
  imports := [d_dh_sidh_common]
  uses := [(d_dh_sidh_common, n_CurveCoefficientsEquiv), (d_dh_sidh_common, n_Fp2), (d_dh_sidh_common, n_ProjectiveCurveParameters), (d_dh_sidh_common, n_ProjectivePoint), (d_dh_sidh_internal_p503, n_add), (d_dh_sidh_internal_p503, n_cswap), (d_dh_sidh_internal_p503, n_inv), (d_dh_sidh_internal_p503, n_mul), (d_dh_sidh_internal_p503, n_params), (d_dh_sidh_internal_p503, n_sqr), (d_dh_sidh_internal_p503, n_sub)]

/-- dh/sidh/internal/p503/doc.go -/
def f_dh_sidh_internal_p503_doc_go : File where
  name := "doc.go"
  head := ["//", "package p503"]
  defs := []
  bare := []
  text := []
  imports := []
  uses := []

/-- dh/sidh/internal/p503/fp2.go -/
def f_dh_sidh_internal_p503_fp2_go : File where
  name := "fp2.go"
  head := ["//", "//", "", "package p503"]
  defs := [n_mulP, n_p34, n_add, n_sub, n_mul, n_inv, n_sqr, n_cswap, n_ToMontgomery, n_FromMontgomery]
  bare := []
  text := []
  imports := [d_dh_sidh_common]
  uses := [(d_dh_sidh_common, n_Fp), (d_dh_sidh_common, n_Fp2), (d_dh_sidh_common, n_FpX2), (d_dh_sidh_internal_p503, n_P503R2), (d_dh_sidh_internal_p503, n_addP503), (d_dh_sidh_internal_p503, n_adlP503), (d_dh_sidh_internal_p503, n_cswapP503), (d_dh_sidh_internal_p503, n_modP503), (d_dh_sidh_internal_p503, n_mulP503), (d_dh_sidh_internal_p503, n_rdcP503), (d_dh_sidh_internal_p503, n_subP503), (d_dh_sidh_internal_p503, n_sulP503)]

/-- dh/sidh/internal/p503/params.go -/
def f_dh_sidh_internal_p503_params_go : File where
  name := "params.go"
  head := ["package p503"]
  defs := [n_FpWords, n_HasBMI2, n_HasADXandBMI2, n_P503, n_P503x2, n_P503p1, n_P503R2, n_P503p1s8, n_P503p1Zeros, n_one, n_half, n_six, n_params, n_init]
  bare := []
  text := []
  imports := [d_dh_sidh_common]
  uses := [(d_dh_sidh_common, n_DomainParams), (d_dh_sidh_common, n_Fp), (d_dh_sidh_common, n_Fp2), (d_dh_sidh_common, n_Fp503), (d_dh_sidh_common, n_ProjectiveCurveParameters), (d_dh_sidh_common, n_Register), (d_dh_sidh_common, n_SidhParams)]

/-- dh/sidh/internal/p751/arith_amd64.s -/
def f_dh_sidh_internal_p751_arith_amd64_s : File where
  name := "arith_amd64.s"
  head := ["// +build amd64,!noasm", "", "#include \"textflag.h\""]
  defs := []
  bare := []
  text := [n_modP751, n_cswapP751, n_addP751, n_subP751, n_mulP751, n_rdcP751, n_adlP751, n_sulP751]
  imports := []
  uses := [(d_dh_sidh_internal_p751, n_HasADXandBMI2), (d_dh_sidh_internal_p751, n_HasBMI2)]

/-- dh/sidh/internal/p751/arith_arm64.s -/
def f_dh_sidh_internal_p751_arith_arm64_s : File where
  name := "arith_arm64.s"
  head := ["// +build arm64,!noasm", "", "#include \"textflag.h\""]
  defs := []
  bare := []
  text := [n_cswapP751, n_addP751, n_subP751, n_adlP751, n_sulP751, n_mulP751, n_rdcP751, n_modP751]
  imports := []
  uses := []

/-- dh/sidh/internal/p751/arith_decl.go -/
def f_dh_sidh_internal_p751_arith_decl_go : File where
  name := "arith_decl.go"
  head := ["//", "//", "", "// +build amd64,!noasm arm64,!noasm", "", "package p751"]
  defs := []
  bare := [n_cswapP751, n_addP751, n_subP751, n_adlP751, n_sulP751, n_modP751, n_mulP751, n_rdcP751]
  text := []
  imports := [d_dh_sidh_common]
  uses := [(d_dh_sidh_common, n_Fp), (d_dh_sidh_common, n_FpX2)]

/-- dh/sidh/internal/p751/arith_generic.go -/
def f_dh_sidh_internal_p751_arith_generic_go : File where
  name := "arith_generic.go"
  head := ["//", "//", "", "// +build noasm !amd64,!arm64", "", "package p751"]
  defs := [n_addP751, n_subP751, n_cswapP751, n_rdcP751, n_mulP751, n_adlP751, n_modP751, n_sulP751]
  bare := []
  text := []
  imports := [d_dh_sidh_common]
  uses := [(d_dh_sidh_common, n_Fp), (d_dh_sidh_common, n_FpX2), (d_dh_sidh_internal_p751, n_FpWords), (d_dh_sidh_internal_p751, n_P751), (d_dh_sidh_internal_p751, n_P751p1), (d_dh_sidh_internal_p751, n_P751p1Zeros), (d_dh_sidh_internal_p751, n_P751x2)]

/-- dh/sidh/internal/p751/core.go -/
def f_dh_sidh_internal_p751_core_go : File where
  name := "core.go"
  head := ["//", "//", "", "package p751"]
  defs := [n_traverseTreePublicKeyA, n_traverseTreeSharedKeyA, n_traverseTreePublicKeyB, n_traverseTreeSharedKeyB, n_PublicKeyGenA, n_PublicKeyGenB, n_DeriveSecretA, n_DeriveSecretB]
  bare := []
  text := []
  imports := [d_dh_sidh_common]
  uses := [(d_dh_sidh_common, n_Fp2), (d_dh_sidh_common, n_Fp2ToBytes), (d_dh_sidh_common, n_ProjectiveCurveParameters), (d_dh_sidh_common, n_ProjectivePoint), (d_dh_sidh_internal_p751, n_CalcCurveParamsEquiv3), (d_dh_sidh_internal_p751, n_CalcCurveParamsEquiv4), (d_dh_sidh_internal_p751, n_Fp2Batch3Inv), (d_dh_sidh_internal_p751, n_FromMontgomery), (d_dh_sidh_internal_p751, n_Jinvariant), (d_dh_sidh_internal_p751, n_Pow2k), (d_dh_sidh_internal_p751, n_Pow3k), (d_dh_sidh_internal_p751, n_RecoverCoordinateA), (d_dh_sidh_internal_p751, n_RecoverCurveCoefficients3), (d_dh_sidh_internal_p751, n_RecoverCurveCoefficients4), (d_dh_sidh_internal_p751, n_ScalarMul3Pt), (d_dh_sidh_internal_p751, n_isogeny3), (d_dh_sidh_internal_p751, n_isogeny4), (d_dh_sidh_internal_p751, n_mul), (d_dh_sidh_internal_p751, n_params)]

/-- dh/sidh/internal/p751/curve.go -/
def f_dh_sidh_internal_p751_curve_go : File where
  name := "curve.go"
  head := ["//", "//", "", "package p751"]
  defs := [n_isogeny3, n_isogeny4, n_Jinvariant, n_RecoverCoordinateA, n_CalcCurveParamsEquiv3, n_CalcCurveParamsEquiv4, n_CalcAplus2Over4, n_RecoverCurveCoefficients3, n_RecoverCurveCoefficients4, n_xDbladd, n_Pow2k, n_Pow3k, n_Fp2Batch3Inv, n_ScalarMul3Pt, n_isogeny3_of_GenerateCurve, n_isogeny3_of_EvaluatePoint, n_isogeny4_of_GenerateCurve, n_isogeny4_of_EvaluatePoint]
  bare := []
  text := []
  imports := [d_dh_sidh_common]
  uses := [(d_dh_sidh_common, n_CurveCoefficientsEquiv), (d_dh_sidh_common, n_Fp2), (d_dh_sidh_common, n_ProjectiveCurveParameters), (d_dh_sidh_common, n_ProjectivePoint), (d_dh_sidh_internal_p751, n_add), (d_dh_sidh_internal_p751, n_cswap), (d_dh_sidh_internal_p751, n_inv), (d_dh_sidh_internal_p751, n_mul), (d_dh_sidh_internal_p751, n_params), (d_dh_sidh_internal_p751, n_sqr), (d_dh_sidh_internal_p751, n_sub)]

/-- dh/sidh/internal/p751/doc.go -/
def f_dh_sidh_internal_p751_doc_go : File where
  name := "doc.go"
  head := ["//", "package p751"]
  defs := []
  bare := []
  text := []
  imports := []
  uses := []

/-- dh/sidh/internal/p751/fp2.go -/
def f_dh_sidh_internal_p751_fp2_go : File where
  name := "fp2.go"
  head := ["//", "//", "", "package p751"]
  defs := [n_mulP, n_p34, n_add, n_sub, n_mul, n_inv, n_sqr, n_cswap, n_ToMontgomery, n_FromMontgomery]
  bare := []
  text := []
  imports := [d_dh_sidh_common]
  uses := [(d_dh_sidh_common, n_Fp), (d_dh_sidh_common, n_Fp2), (d_dh_sidh_common, n_FpX2), (d_dh_sidh_internal_p751, n_P751R2), (d_dh_sidh_internal_p751, n_addP751), (d_dh_sidh_internal_p751, n_adlP751), (d_dh_sidh_internal_p751, n_cswapP751), (d_dh_sidh_internal_p751, n_modP751), (d_dh_sidh_internal_p751, n_mulP751), (d_dh_sidh_internal_p751, n_rdcP751), (d_dh_sidh_internal_p751, n_subP751), (d_dh_sidh_internal_p751, n_sulP751)]

/-- dh/sidh/internal/p751/params.go -/
def f_dh_sidh_internal_p751_params_go : File where
  name := "params.go"
  head := ["package p751"]
  defs := [n_FpWords, n_HasBMI2, n_HasADXandBMI2, n_P751, n_P751x2, n_P751p1, n_P751R2, n_P751p1Zeros, n_one, n_half, n_six, n_params, n_init]
  bare := []
  text := []
  imports := [d_dh_sidh_common]
  uses := [(d_dh_sidh_common, n_DomainParams), (d_dh_sidh_common, n_Fp), (d_dh_sidh_common, n_Fp2), (d_dh_sidh_common, n_Fp751), (d_dh_sidh_common, n_ProjectiveCurveParameters), (d_dh_sidh_common, n_Register), (d_dh_sidh_common, n_SidhParams)]

/-- dh/sidh/internal/templates/gen.go -/
def f_dh_sidh_internal_templates_gen_go : File where
  name := "gen.go"
  head := ["//", "", "// +build ignore", "", "//", "//", "package main"]
  defs := [n_p34, n_opt_arm, n_gen, n_main]
  bare := []
  text := []
  imports := []
  uses := []

/-- drbg/ctr_drbg.go -/
def f_drbg_ctr_drbg_go : File where
  name := "ctr_drbg.go"
  head := ["//", "//", "//", "//", "//", "//", "//", "//", "//", "//", "", "package drbg"]
  defs := [n_BlockLen, n_KeyLen, n_SeedLen, n_CtrDrbg, n_NewCtrDrbg, n_CtrDrbg_of_inc, n_CtrDrbg_of_Init, n_CtrDrbg_of_update, n_CtrDrbg_of_Reseed, n_CtrDrbg_of_ReadWithAdditionalData, n_CtrDrbg_of_Read]
  bare := []
  text := []
  imports := [d_drbg_internal_aes, d_utils]
  uses := [(d_drbg_internal_aes, n_AES), (d_drbg_internal_aes, n_AESAsm), (d_drbg_internal_aes, n_IAES), (d_utils, n_X86)]

/-- drbg/internal/aes/asm_amd64.s -/
def f_drbg_internal_aes_asm_amd64_s : File where
  name := "asm_amd64.s"
  head := ["//", "//", "//", "", "// +build amd64, !noasm", "", "#include \"textflag.h\""]
  defs := []
  bare := []
  text := [n_encryptBlockAsm, n_decryptBlockAsm, n_expandKeyAsm]
  imports := []
  uses := []

/-- drbg/internal/aes/asm_arm64.s -/
def f_drbg_internal_aes_asm_arm64_s : File where
  name := "asm_arm64.s"
  head := ["//", "//", "//", "", "// +build arm64, !noasm", "", "#include \"textflag.h\""]
  defs := []
  bare := []
  text := [n_encryptBlockAsm, n_decryptBlockAsm, n_expandKeyAsm]
  imports := []
  uses := []

/-- drbg/internal/aes/cipher.go -/
def f_drbg_internal_aes_cipher_go : File where
  name := "cipher.go"
  head := ["//", "//", "//", "", "package aes"]
  defs := [n_BlockSize, n_AES, n_IAES, n_KeySizeError, n_KeySizeError_of_Error, n_NewCipher, n_AES_of_SetKey, n_AES_of_BlockSize, n_AES_of_Encrypt, n_AES_of_Decrypt]
  bare := []
  text := []
  imports := []
  uses := [(d_drbg_internal_aes, n_InexactOverlap), (d_drbg_internal_aes, n_decryptBlockGo), (d_drbg_internal_aes, n_encryptBlockGo), (d_drbg_internal_aes, n_expandKeyGo)]

/-- drbg/internal/aes/cipher_asm.go -/
def f_drbg_internal_aes_cipher_asm_go : File where
  name := "cipher_asm.go"
  head := ["//", "//", "//", "// +build amd64, !noasm", "", "package aes"]
  defs := [n_AESAsm, n_AESAsm_of_SetKey, n_AESAsm_of_BlockSize, n_AESAsm_of_Encrypt, n_AESAsm_of_Decrypt, n_expandKey]
  bare := [n_encryptBlockAsm, n_decryptBlockAsm, n_expandKeyAsm]
  text := []
  imports := [d_utils]
  uses := [(d_drbg_internal_aes, n_BlockSize), (d_drbg_internal_aes, n_InexactOverlap), (d_drbg_internal_aes, n_expandKeyGo), (d_utils, n_X86)]

/-- drbg/internal/aes/const.go -/
def f_drbg_internal_aes_const_go : File where
  name := "const.go"
  head := ["//", "//", "//", "", "//", "//", "//", "//", "//", "//", "//", "//", "//", "package aes"]
  defs := [n_poly, n_powx, n_sbox0, n_sbox1, n_te0, n_te1, n_te2, n_te3, n_td0, n_td1, n_td2, n_td3]
  bare := []
  text := []
  imports := []
  uses := []

/-- drbg/internal/aes/generic.go -/
def f_drbg_internal_aes_generic_go : File where
  name := "generic.go"
  head := ["//", "//", "//", "", "//", "//", "//", "//", "//", "//", "//", "//", "//", "//", "//", "//", "//", "//", "//", "//", "//", "//", "//", "//", "//", "//", "//", "//", "//", "//", "//", "//", "//", "//", "//", "", "package aes"]
  defs := [n_encryptBlockGo, n_decryptBlockGo, n_subw, n_rotw, n_expandKeyGo]
  bare := []
  text := []
  imports := []
  uses := [(d_drbg_internal_aes, n_powx), (d_drbg_internal_aes, n_sbox0), (d_drbg_internal_aes, n_sbox1), (d_drbg_internal_aes, n_td0), (d_drbg_internal_aes, n_td1), (d_drbg_internal_aes, n_td2), (d_drbg_internal_aes, n_td3), (d_drbg_internal_aes, n_te0), (d_drbg_internal_aes, n_te1), (d_drbg_internal_aes, n_te2), (d_drbg_internal_aes, n_te3)]

/-- drbg/internal/aes/tools.go -/
def f_drbg_internal_aes_tools_go : File where
  name := "tools.go"
  head := ["//", "//", "//", "", "// +build !appengine", "", "//", "//", "//", "//", "package aes"]
  defs := [n_AnyOverlap, n_InexactOverlap]
  bare := []
  text := []
  imports := []
  uses := []

/-- hash/sha3/doc.go -/
def f_hash_sha3_doc_go : File where
  name := "doc.go"
  head := ["//", "//", "//", "//", "", "//", "//", "//", "//", "//", "//", "//", "//", "//", "//", "//", "//", "//", "//", "package sha3 // import \"github.com/henrydcase/nobs/hash/sha3\""]
  defs := []
  bare := []
  text := []
  imports := []
  uses := []

/-- hash/sha3/keccakf.go -/
def f_hash_sha3_keccakf_go : File where
  name := "keccakf.go"
  head := ["//", "//", "//", "", "//  +build !amd64 appengine gccgo noasm", "", "package sha3"]
  defs := [n_rc, n_keccakF1600]
  bare := []
  text := []
  imports := []
  uses := []

/-- hash/sha3/keccakf_amd64.go -/
def f_hash_sha3_keccakf_amd64_go : File where
  name := "keccakf_amd64.go"
  head := ["//", "//", "//", "", "// +build amd64,!appengine,!gccgo,!noasm", "", "package sha3"]
  defs := []
  bare := [n_keccakF1600]
  text := []
  imports := []
  uses := []

/-- hash/sha3/keccakf_amd64.s -/
def f_hash_sha3_keccakf_amd64_s : File where
  name := "keccakf_amd64.s"
  head := ["//", "//", "//", "", "// +build amd64,!appengine,!gccgo,!noasm", "", "//", "//", "", "//", "#define _ba  (0*8)"]
  defs := []
  bare := []
  text := [n_keccakF1600]
  imports := []
  uses := []

/-- hash/sha3/sha3.go -/
def f_hash_sha3_sha3_go : File where
  name := "sha3.go"
  head := ["//", "//", "//", "", "package sha3"]
  defs := [n_spongeDesc, n_SHA3_224, n_SHA3_256, n_SHA3_384, n_SHA3_512, n_SHAKE128, n_SHAKE256, n_maxRate, n_ErrWriteAfterRead, n_Sha3Desc, n_state, n_min, n_state_of_BlockSize, n_state_of_Size, n_state_of_Reset, n_state_of_Write, n_state_of_finalize_sha3, n_state_of_Read, n_state_of_Sum, n_state_of_digest, n_New224, n_New256, n_New384, n_New512]
  bare := []
  text := []
  imports := []
  uses := [(d_hash_sha3, n_copyOut), (d_hash_sha3, n_keccakF1600), (d_hash_sha3, n_storageBuf), (d_hash_sha3, n_xorIn)]

/-- hash/sha3/shake.go -/
def f_hash_sha3_shake_go : File where
  name := "shake.go"
  head := ["//", "//", "//", "", "package sha3"]
  defs := [n_ShakeHash, n_cshakeState, n_sfxShake, n_sfxCShake, n_rate128, n_rate256, n_bytepad, n_leftEncode, n_newCShake, n_cshakeState_of_Reset, n_cshakeState_of_Clone, n_state_of_Clone, n_NewShake128, n_NewShake256, n_NewCShake128, n_NewCShake256, n_ShakeSum128, n_ShakeSum256]
  bare := []
  text := []
  imports := []
  uses := [(d_hash_sha3, n_SHAKE128), (d_hash_sha3, n_SHAKE256), (d_hash_sha3, n_Sha3Desc), (d_hash_sha3, n_state)]

/-- hash/sha3/xor.go -/
def f_hash_sha3_xor_go : File where
  name := "xor.go"
  head := ["//", "//", "//", "", "// +build !amd64,!386,!ppc64le appengine", "", "package sha3"]
  defs := [n_storageBuf, n_storageBuf_of_asBytes, n_xorIn, n_copyOut, n_xorInUnaligned, n_copyOutUnaligned, n_xorImplementationUnaligned]
  bare := []
  text := []
  imports := []
  uses := [(d_hash_sha3, n_copyOutGeneric), (d_hash_sha3, n_maxRate), (d_hash_sha3, n_xorInGeneric)]

/-- hash/sha3/xor_generic.go -/
def f_hash_sha3_xor_generic_go : File where
  name := "xor_generic.go"
  head := ["//", "//", "//", "", "package sha3"]
  defs := [n_xorInGeneric, n_copyOutGeneric]
  bare := []
  text := []
  imports := []
  uses := [(d_hash_sha3, n_state)]

/-- hash/sha3/xor_unaligned.go -/
def f_hash_sha3_xor_unaligned_go : File where
  name := "xor_unaligned.go"
  head := ["//", "//", "//", "", "// +build amd64 386 ppc64le", "// +build !appengine", "", "package sha3"]
  defs := [n_storageBuf, n_storageBuf_of_asBytes, n_xorInUnaligned, n_copyOutUnaligned, n_xorIn, n_copyOut, n_xorImplementationUnaligned]
  bare := []
  text := []
  imports := []
  uses := [(d_hash_sha3, n_maxRate), (d_hash_sha3, n_state)]

/-- hash/sm3/compress.go -/
def f_hash_sm3_compress_go : File where
  name := "compress.go"
  head := ["package sm3"]
  defs := [n_rotl32, n_p0, n_p1, n_ch, n_maj, n_r1, n_r2, n_sm3e, n_loadBe32, n_store64Be, n_store32Be, n_digest_of_compress]
  bare := []
  text := []
  imports := []
  uses := [(d_hash_sm3, n_digest)]

/-- hash/sm3/sm3.go -/
def f_hash_sm3_sm3_go : File where
  name := "sm3.go"
  head := ["//", "//", "//", "package sm3"]
  defs := [n_init0, n_init1, n_init2, n_init3, n_init4, n_init5, n_init6, n_init7, n_Size, n_BlockSize, n_digest, n_New, n_digest_of_BlockSize, n_digest_of_Size, n_digest_of_Init, n_digest_of_Reset, n_digest_of_Write, n_digest_of_Sum]
  bare := []
  text := []
  imports := []
  uses := [(d_hash_sm3, n_store32Be), (d_hash_sm3, n_store64Be)]

/-- kem/mkem/csidh.go -/
def f_kem_mkem_csidh_go : File where
  name := "csidh.go"
  head := ["package mkem"]
  defs := [n_SharedSecretSz, n_PublicKeySz, n_ciphertext, n_PKE, n_MultiPKE, n_PKE_of_Allocate, n_MultiPKE_of_Allocate, n_PKE_of_Enc, n_PKE_of_Dec, n_MultiPKE_of_Encrypt]
  bare := []
  text := []
  imports := [d_dh_csidh, d_drbg, d_hash_sha3]
  uses := [(d_dh_csidh, n_DeriveSecret), (d_dh_csidh, n_GeneratePrivateKey), (d_dh_csidh, n_GeneratePublicKey), (d_dh_csidh, n_PrivateKey), (d_dh_csidh, n_PublicKey), (d_drbg, n_CtrDrbg), (d_hash_sha3, n_NewShake128), (d_hash_sha3, n_ShakeHash)]

/-- kem/mkem/sike.go -/
def f_kem_mkem_sike_go : File where
  name := "sike.go"
  head := ["package mkem"]
  defs := [n_KEM, n_MultiKEM, n_G1, n_G2, n_G3, n_NewSike434, n_NewSike503, n_NewSike751, n_KEM_of_Allocate, n_MultiKEM_of_Allocate, n_MultiKEM_of_NewPrivateKey, n_MultiKEM_of_NewPublicKey, n_KEM_of_PublicKeySize, n_KEM_of_Encapsulate, n_KEM_of_Decapsulate, n_MultiKEM_of_Encapsulate, n_MultiKEM_of_Decapsulate, n_KEM_of_Reset, n_KEM_of_CiphertextSize, n_KEM_of_SharedSecretSize, n_KEM_of_KemSize, n_KEM_of_generateCiphertext, n_KEM_of_encrypt, n_KEM_of_decrypt]
  bare := []
  text := []
  imports := [d_dh_sidh, d_dh_sidh_common, d_hash_sha3]
  uses := [(d_dh_sidh, n_Fp434), (d_dh_sidh, n_Fp503), (d_dh_sidh, n_Fp751), (d_dh_sidh, n_Key), (d_dh_sidh, n_KeyVariantSidhA), (d_dh_sidh, n_KeyVariantSike), (d_dh_sidh, n_NewPrivateKey), (d_dh_sidh, n_NewPublicKey), (d_dh_sidh, n_PrivateKey), (d_dh_sidh, n_PublicKey), (d_dh_sidh_common, n_Cpick), (d_dh_sidh_common, n_MaxMsgBsz), (d_dh_sidh_common, n_MaxPublicKeySz), (d_dh_sidh_common, n_MaxSharedSecretBsz), (d_dh_sidh_common, n_MaxSidhPrivateKeyBsz), (d_dh_sidh_common, n_Params), (d_dh_sidh_common, n_SidhParams), (d_hash_sha3, n_NewShake256), (d_hash_sha3, n_ShakeHash), (d_kem_mkem, n_ciphertext)]

/-- kem/mkem/cmd/bench.go -/
def f_kem_mkem_cmd_bench_go : File where
  name := "bench.go"
  head := ["package main"]
  defs := [n_nRecipients, n_nLoops, n_benchFunc, n_sPKE, n_mPKE, n_KEMp434, n_KEMp503, n_KEMp751, n_mKEMp434, n_mKEMp503, n_mKEMp751, n_testSKS_csidh, n_testPKS_csidh, n_testPKS_SIDHp434, n_testPKS_SIDHp503, n_testPKS_SIDHp751, n_MessgaeTest, n_ct, n_ss, n_rng, n_init, n_init_sike, n_bench_CSIDH_PKE, n_bench_CSIDH_mPKE, n_bench_SIKE_KEM, n_bench_SIKE_mKEM, n_count_cycles, n_alg, n_main]
  bare := []
  text := []
  imports := [d_dh_csidh, d_dh_sidh, d_dh_sidh_common, d_drbg]
  uses := [(d_dh_csidh, n_GeneratePrivateKey), (d_dh_csidh, n_GeneratePublicKey), (d_dh_csidh, n_PrivateKey), (d_dh_csidh, n_PublicKey), (d_dh_sidh, n_KEM), (d_dh_sidh, n_KeyVariantSike), (d_dh_sidh, n_NewPrivateKey), (d_dh_sidh, n_NewPublicKey), (d_dh_sidh, n_PrivateKey), (d_dh_sidh, n_PublicKey), (d_dh_sidh_common, n_Fp434), (d_dh_sidh_common, n_Fp503), (d_dh_sidh_common, n_Fp751), (d_dh_sidh_common, n_MaxCiphertextBsz), (d_dh_sidh_common, n_MaxSharedSecretBsz), (d_drbg, n_CtrDrbg), (d_drbg, n_NewCtrDrbg)]

/-- utils/cpu.go -/
def f_utils_cpu_go : File where
  name := "cpu.go"
  head := ["package utils"]
  defs := [n_x86, n_X86]
  bare := []
  text := []
  imports := []
  uses := []

/-- utils/cpuid_amd64.go -/
def f_utils_cpuid_amd64_go : File where
  name := "cpuid_amd64.go"
  head := ["// +build amd64,!noasm", "", "//", "//", "//", "//", "", "package utils"]
  defs := [n_bitn, n_init]
  bare := [n_cpuid]
  text := []
  imports := []
  uses := [(d_utils, n_X86)]

/-- utils/cpuid_amd64.s -/
def f_utils_cpuid_amd64_s : File where
  name := "cpuid_amd64.s"
  head := ["// +build amd64,!noasm", "", "#include \"textflag.h\""]
  defs := []
  bare := []
  text := [n_cpuid]
  imports := []
  uses := []

/-- dh -/
def p_dh : Pkg := ⟨d_dh, [f_dh_doc_go]⟩

/-- dh/csidh -/
def p_dh_csidh : Pkg := ⟨d_dh_csidh, [f_dh_csidh_consts_go, f_dh_csidh_csidh_go, f_dh_csidh_curve_go, f_dh_csidh_doc_go, f_dh_csidh_fp511_go, f_dh_csidh_fp511_amd64_go, f_dh_csidh_fp511_amd64_s, f_dh_csidh_fp511_generic_go]⟩

/-- dh/sidh -/
def p_dh_sidh : Pkg := ⟨d_dh_sidh, [f_dh_sidh_doc_go, f_dh_sidh_sidh_go, f_dh_sidh_sike_go]⟩

/-- dh/sidh/common -/
def p_dh_sidh_common : Pkg := ⟨d_dh_sidh_common, [f_dh_sidh_common_doc_go, f_dh_sidh_common_params_go, f_dh_sidh_common_types_go, f_dh_sidh_common_utils_go]⟩

/-- dh/sidh/internal -/
def p_dh_sidh_internal : Pkg := ⟨d_dh_sidh_internal, [f_dh_sidh_internal_doc_go]⟩

/-- dh/sidh/internal/p434 -/
def p_dh_sidh_internal_p434 : Pkg := ⟨d_dh_sidh_internal_p434, [f_dh_sidh_internal_p434_arith_amd64_s, f_dh_sidh_internal_p434_arith_decl_go, f_dh_sidh_internal_p434_arith_generic_go, f_dh_sidh_internal_p434_core_go, f_dh_sidh_internal_p434_curve_go, f_dh_sidh_internal_p434_doc_go, f_dh_sidh_internal_p434_fp2_go, f_dh_sidh_internal_p434_params_go]⟩

/-- dh/sidh/internal/p503 -/
def p_dh_sidh_internal_p503 : Pkg := ⟨d_dh_sidh_internal_p503, [f_dh_sidh_internal_p503_arith_amd64_s, f_dh_sidh_internal_p503_arith_arm64_s, f_dh_sidh_internal_p503_arith_decl_go, f_dh_sidh_internal_p503_arith_generic_go, f_dh_sidh_internal_p503_core_go, f_dh_sidh_internal_p503_curve_go, f_dh_sidh_internal_p503_doc_go, f_dh_sidh_internal_p503_fp2_go, f_dh_sidh_internal_p503_params_go]⟩

/-- dh/sidh/internal/p751 -/
def p_dh_sidh_internal_p751 : Pkg := ⟨d_dh_sidh_internal_p751, [f_dh_sidh_internal_p751_arith_amd64_s, f_dh_sidh_internal_p751_arith_arm64_s, f_dh_sidh_internal_p751_arith_decl_go, f_dh_sidh_internal_p751_arith_generic_go, f_dh_sidh_internal_p751_core_go, f_dh_sidh_internal_p751_curve_go, f_dh_sidh_internal_p751_doc_go, f_dh_sidh_internal_p751_fp2_go, f_dh_sidh_internal_p751_params_go]⟩

/-- dh/sidh/internal/templates -/
def p_dh_sidh_internal_templates : Pkg := ⟨d_dh_sidh_internal_templates, [f_dh_sidh_internal_templates_gen_go]⟩

/-- drbg -/
def p_drbg : Pkg := ⟨d_drbg, [f_drbg_ctr_drbg_go]⟩

/-- drbg/internal/aes -/
def p_drbg_internal_aes : Pkg := ⟨d_drbg_internal_aes, [f_drbg_internal_aes_asm_amd64_s, f_drbg_internal_aes_asm_arm64_s, f_drbg_internal_aes_cipher_go, f_drbg_internal_aes_cipher_asm_go, f_drbg_internal_aes_const_go, f_drbg_internal_aes_generic_go, f_drbg_internal_aes_tools_go]⟩

/-- hash/sha3 -/
def p_hash_sha3 : Pkg := ⟨d_hash_sha3, [f_hash_sha3_doc_go, f_hash_sha3_keccakf_go, f_hash_sha3_keccakf_amd64_go, f_hash_sha3_keccakf_amd64_s, f_hash_sha3_sha3_go, f_hash_sha3_shake_go, f_hash_sha3_xor_go, f_hash_sha3_xor_generic_go, f_hash_sha3_xor_unaligned_go]⟩

/-- hash/sm3 -/
def p_hash_sm3 : Pkg := ⟨d_hash_sm3, [f_hash_sm3_compress_go, f_hash_sm3_sm3_go]⟩

/-- kem/mkem -/
def p_kem_mkem : Pkg := ⟨d_kem_mkem, [f_kem_mkem_csidh_go, f_kem_mkem_sike_go]⟩

/-- kem/mkem/cmd -/
def p_kem_mkem_cmd : Pkg := ⟨d_kem_mkem_cmd, [f_kem_mkem_cmd_bench_go]⟩

/-- utils -/
def p_utils : Pkg := ⟨d_utils, [f_utils_cpu_go, f_utils_cpuid_amd64_go, f_utils_cpuid_amd64_s]⟩

/-- the directories of /repo with their files -/
def repo : List Pkg :=
  [p_dh, p_dh_csidh, p_dh_sidh, p_dh_sidh_common, p_dh_sidh_internal, p_dh_sidh_internal_p434, p_dh_sidh_internal_p503, p_dh_sidh_internal_p751, p_dh_sidh_internal_templates, p_drbg, p_drbg_internal_aes, p_hash_sha3, p_hash_sm3, p_kem_mkem, p_kem_mkem_cmd, p_utils]

end Model.GoBuild
