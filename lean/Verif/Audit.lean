import Lean.Util.CollectAxioms
import Lean.Elab.Command
import Verif.Props.AES
import Verif.Props.AESMem
import Verif.Props.AESSteps
import Verif.Props.AsmArith
import Verif.Props.AsmArm
import Verif.Props.AsmCsidh
import Verif.Props.AsmSteps
import Verif.Props.CsidhAgree
import Verif.Props.CsidhBuild
import Verif.Props.CsidhCancel
import Verif.Props.CsidhCurve
import Verif.Props.CsidhField
import Verif.Props.CsidhKeys
import Verif.Props.CsidhLive
import Verif.Props.CsidhMem
import Verif.Props.CsidhPanic
import Verif.Props.CsidhPke
import Verif.Props.CsidhShared
import Verif.Props.CsidhSteps
import Verif.Props.CsidhSuper
import Verif.Props.CsidhValidate
import Verif.Props.CsidhZero
import Verif.Props.DRBG
import Verif.Props.DRBGSeed
import Verif.Props.DRBGShared
import Verif.Props.DRBGSteps
import Verif.Props.Failures
import Verif.Props.GoBuild
import Verif.Props.Mkem
import Verif.Props.MkemPanic
import Verif.Props.MkemSteps
import Verif.Props.Readers
import Verif.Props.SM3
import Verif.Props.SM3Steps
import Verif.Props.Sha3
import Verif.Props.Sha3Steps
import Verif.Props.SidhArith
import Verif.Props.SidhBuild
import Verif.Props.SidhCurve
import Verif.Props.SidhFp2
import Verif.Props.SidhInit
import Verif.Props.SidhKeys
import Verif.Props.SidhMem
import Verif.Props.SidhSteps
import Verif.Props.Sike
import Verif.Props.SikeOverlap
import Verif.Props.SikePanic
import Verif.Props.SikeRun
import Verif.Props.SikeShared
import Verif.Props.SikeSharedDec
import Verif.Props.SikeSharedRun
import Verif.Props.Slices
import Verif.Props.Uniform
import Verif.Props.Utils
/-
Every theorem of MANIFEST.json depends on no other axioms than `propext`, `Classical.choice` and `Quot.sound`.  Printed by
gen/manifest.py; the build fails if one does.
-/
open Lean Elab Command in
run_cmd liftTermElabM do
  let names : List Name := [
    ``Props.Sha3.c01_stream,
    ``Props.Sha3.c01_refines,
    ``Props.Sha3.c02_keccakF,
    ``Props.Sha3.c02_image_injective,
    ``Props.Sha3.c03_write_after_read,
    ``Props.Sha3.c04_reset,
    ``Props.Sha3.c04_reset_custom,
    ``Props.Sha3.c04_custom_exists,
    ``Props.Sha3.c05_sum_partial,
    ``Props.Sha3.c05_after_sum,
    ``Props.Sha3.c05_full_false,
    ``Props.Sha3.c05_second_sum_differs,
    ``Props.Sha3.c06_independent,
    ``Props.Sha3.c06_clone,
    ``Props.Sha3.c06_runs,
    ``Props.Sha3.c06_plain_alive,
    ``Props.Sha3.c07_xorIn,
    ``Props.Sha3.c07_copyOut,
    ``Props.Sha3.c07_results,
    ``Props.Sha3.c08_cshake128_partial,
    ``Props.Sha3.c08_cshake256_partial,
    ``Props.Sha3.c08_code,
    ``Props.Sha3.c08_full128_false,
    ``Props.Sha3.c09_separation,
    ``Props.Sha3.c09_output,
    ``Props.Sha3.c09_padding,
    ``Props.Sha3.c10_no_names,
    ``Props.Sha3.c11_shakeSum,
    ``Props.Sha3.c12_leftEncode,
    ``Props.Sha3.c12_minimal,
    ``Props.Sha3.c13_read_split,
    ``Props.SM3.c14_stream,
    ``Props.SM3.c14_stream_new,
    ``Props.SM3.c14_history,
    ``Props.SM3.c15_compress,
    ``Props.SM3.c15_short,
    ``Props.SM3.c16_sum_pure,
    ``Props.SM3.c16_state,
    ``Props.SM3.c16_repeat,
    ``Props.SM3.c17_write_partial,
    ``Props.SM3.c17_count,
    ``Props.SM3.c17_full_false,
    ``Props.SM3.c18_sum_partial,
    ``Props.SM3.c18_full_false,
    ``Props.SM3.c19_reset,
    ``Props.AES.c20_encrypt,
    ``Props.AES.c20_short,
    ``Props.AES.c21_inverse,
    ``Props.AES.c21_decrypt,
    ``Props.AES.c22_history,
    ``Props.AES.c23_agree_partial,
    ``Props.AES.c23_wf,
    ``Props.AES.c23_routines,
    ``Props.AES.c23_full_false,
    ``Props.AES.c23_illegal,
    ``Props.DRBG.c24_inc,
    ``Props.DRBG.c24_distinct,
    ``Props.DRBG.c25_conformance,
    ``Props.DRBG.c25_no_panic,
    ``Props.DRBG.c26_whole_blocks_partial,
    ``Props.DRBG.c26_short,
    ``Props.DRBG.c26_full_false,
    ``Props.DRBG.c27_distinct_partial,
    ``Props.DRBG.c27_tail_repeats,
    ``Props.DRBG.c28_refused_partial,
    ``Props.DRBG.c28_full_false,
    ``Props.DRBG.c29_history_partial,
    ``Props.DRBG.c29_full_false,
    ``Props.DRBG.c30_update,
    ``Props.DRBG.run_det,
    ``Props.DRBG.c30_platform,
    ``Props.Utils.c31_flags_partial,
    ``Props.Utils.c31_full_false,
    ``Props.Utils.c31_old,
    ``Props.SidhKeys.c32_cpick,
    ``Props.SidhKeys.c32_fromBytes,
    ``Props.SidhKeys.c32_toBytes,
    ``Props.SidhKeys.c32_bytes_roundtrip,
    ``Props.SidhKeys.c32_elt_roundtrip,
    ``Props.SidhKeys.c33_register,
    ``Props.SidhKeys.c33_history,
    ``Props.SidhKeys.c33_std,
    ``Props.SidhKeys.c34_new,
    ``Props.SidhKeys.c34_accepts,
    ``Props.SidhKeys.c34_export_import,
    ``Props.SidhKeys.c34_import_export,
    ``Props.SidhKeys.c35_import,
    ``Props.SidhKeys.c35_canonical,
    ``Props.SidhKeys.c35_export,
    ``Props.SidhKeys.c35_roundtrip,
    ``Props.SidhKeys.c36_false,
    ``Props.SidhKeys.c36_import_used_partial,
    ``Props.SidhKeys.c37_error,
    ``Props.SidhKeys.c37_function,
    ``Props.SidhKeys.c37_range,
    ``Props.SidhKeys.c37_p434A_partial,
    ``Props.SidhKeys.c37_p434A_false,
    ``Props.SidhKeys.c37_wrapper_false,
    ``Props.SidhArith.c38_add_sub,
    ``Props.SidhArith.c38_alias,
    ``Props.SidhArith.c39_mod,
    ``Props.SidhArith.c39_canonical,
    ``Props.SidhArith.c40_mul,
    ``Props.SidhArith.c41_rdc,
    ``Props.SidhArith.c42_cswap,
    ``Props.SidhArith.c42_cswap2,
    ``Props.SidhFp2.c43_field,
    ``Props.SidhFp2.c43_inv,
    ``Props.SidhFp2.c43_total,
    ``Props.SidhFp2.c43_constants,
    ``Props.CsidhField.c44_prime,
    ``Props.SidhFp2.c44_sidh,
    ``Props.SidhFp2.c45_montgomery,
    ``Props.SidhFp2.c45_from,
    ``Props.SidhCurve.c46_double,
    ``Props.SidhCurve.c46_triple,
    ``Props.SidhCurve.c46_dbladd,
    ``Props.SidhCurve.c47_ladder,
    ``Props.SidhCurve.c47_short,
    ``Props.SidhCurve.c48_three,
    ``Props.SidhCurve.c48_four,
    ``Props.SidhCurve.c49_A,
    ``Props.SidhCurve.c49_B,
    ``Props.SidhCurve.c50_recover,
    ``Props.SidhCurve.c50_convert,
    ``Props.SidhCurve.c50_j,
    ``Props.SidhCurve.c50_isomorphic,
    ``Props.SidhCurve.c51_agree,
    ``Props.SidhCurve.c51_agree_sent,
    ``Props.SidhCurve.c51_agree_repr,
    ``Props.SidhKeys.c52_publicKey,
    ``Props.SidhKeys.c52_derive,
    ``Props.Sike.c53_correct,
    ``Props.Sike.c53_encapsulate,
    ``Props.Sike.c54_decapsulate,
    ``Props.Sike.c54_rejects,
    ``Props.Sike.c55_encaps_panics,
    ``Props.Sike.c55_decaps_panics,
    ``Props.Sike.c55_encaps_iff,
    ``Props.Sike.c55_decaps_iff,
    ``Props.Sike.c55_encaps_returns,
    ``Props.Sike.c55_oversize_partial,
    ``Props.SikeRun.c55_oversize_false,
    ``Props.Sike.c56_history_free,
    ``Props.Sike.c57_canonical,
    ``Props.Sike.c57_unique,
    ``Props.Mkem.c58_correct,
    ``Props.Mkem.c58_spec,
    ``Props.Mkem.c60_allocate,
    ``Props.Mkem.c59_receiver_partial,
    ``Props.Mkem.c59_false,
    ``Props.Mkem.c60_independent,
    ``Props.Mkem.c60_too_many,
    ``Props.Mkem.c60_random_source,
    ``Props.CsidhAgree.c61_roundtrip,
    ``Props.CsidhAgree.case_pke,
    ``Props.CsidhPke.c62_mask_partial,
    ``Props.CsidhPke.c62_false,
    ``Props.CsidhPke.c62_multi_false,
    ``Props.CsidhPke.c62_runs,
    ``Props.CsidhPke.c63_encrypt_partial,
    ``Props.CsidhPke.c63_false,
    ``Props.CsidhPke.c63_example,
    ``Props.CsidhField.c64_field,
    ``Props.CsidhField.c64_inverse,
    ``Props.CsidhField.c64_canonical,
    ``Props.CsidhField.c64_constants,
    ``Props.CsidhField.c64_alias,
    ``Props.CsidhField.c65_mul,
    ``Props.CsidhField.c65_compare,
    ``Props.CsidhField.c65_sub,
    ``Props.CsidhField.c65_swap,
    ``Props.CsidhField.c65_alias,
    ``Props.CsidhCurve.c66_ladder,
    ``Props.CsidhCurve.c66_origin,
    ``Props.CsidhCurve.c66_origin_odd,
    ``Props.CsidhCurve.c66_zero,
    ``Props.CsidhCurve.c66_points,
    ``Props.CsidhKeys.c67_generate,
    ``Props.CsidhKeys.c67_error,
    ``Props.CsidhKeys.c67_range,
    ``Props.CsidhKeys.c67_roundtrip,
    ``Props.CsidhKeys.c67_short,
    ``Props.CsidhKeys.c67_long_panics,
    ``Props.CsidhKeys.c68_import_iff,
    ``Props.CsidhKeys.c68_roundtrip,
    ``Props.CsidhKeys.c68_reused,
    ``Props.CsidhKeys.c68_rejects,
    ``Props.CsidhValidate.c69_accept_partial,
    ``Props.CsidhValidate.c69_round,
    ``Props.CsidhValidate.c69_round_origin,
    ``Props.CsidhKeys.c70_first,
    ``Props.CsidhKeys.c70_panic,
    ``Props.CsidhKeys.c71_counts,
    ``Props.CsidhKeys.c71_direction,
    ``Props.CsidhKeys.c72_derive,
    ``Props.CsidhValidate.c73_reject,
    ``Props.CsidhZero.c74_derive,
    ``Props.CsidhZero.c74_public,
    ``Props.CsidhZero.c74_ends,
    ``Props.CsidhAgree.c75_agree,
    ``Props.CsidhAgree.c75_wire,
    ``Props.CsidhAgree.case_agree,
    ``Props.CsidhAgree.c76_public,
    ``Props.CsidhAgree.c76_secret,
    ``Props.CsidhAgree.c76_valid,
    ``Props.CsidhAgree.c76_derive,
    ``Props.CsidhAgree.c77_exponents,
    ``Props.CsidhAgree.c77_order,
    ``Props.AsmArith.c78_add,
    ``Props.AsmArith.c78_sub,
    ``Props.AsmArith.c78_adl,
    ``Props.AsmArith.c78_sul,
    ``Props.AsmArith.c78_mod,
    ``Props.AsmArith.c78_values,
    ``Props.AsmArith.c79_mul,
    ``Props.AsmArith.c79_value,
    ``Props.AsmArith.c80_p434_partial,
    ``Props.AsmArith.c80_false,
    ``Props.AsmArith.c81_rdc,
    ``Props.AsmArith.c81_value,
    ``Props.AsmArith.c82_bp_partial,
    ``Props.AsmArith.c82_false,
    ``Props.AsmArith.c83_mont,
    ``Props.AsmCsidh.c84_mul512,
    ``Props.AsmCsidh.c84_mul576,
    ``Props.AsmCsidh.c84_mulBmi,
    ``Props.AsmCsidh.c84_mulRdc,
    ``Props.AsmCsidh.c84_field,
    ``Props.AsmCsidh.c85_sidh,
    ``Props.AsmCsidh.c85_sidh_portable,
    ``Props.AsmCsidh.c85_csidh,
    ``Props.AsmCsidh.c85_other,
    ``Props.AsmCsidh.c86_portable,
    ``Props.AsmCsidh.c86_fips,
    ``Props.AsmArm.c87_add,
    ``Props.AsmArm.c87_sub,
    ``Props.AsmArm.c87_adl,
    ``Props.AsmArm.c87_sul,
    ``Props.AsmArm.c87_mod,
    ``Props.AsmArm.c87_values,
    ``Props.AsmArm.c88_mul751,
    ``Props.AsmArm.c88_value751,
    ``Props.AsmArm.c88_rdc,
    ``Props.AsmArm.c88_rdc_value,
    ``Props.AsmArm.c89_exact,
    ``Props.AsmArm.c89_exact_sq,
    ``Props.AsmArm.c89_iff,
    ``Props.AsmArm.c89_mul503_partial,
    ``Props.AsmArm.c89_false,
    ``Props.AsmArm.c89_false_field,
    ``Props.AsmArm.c90_mont_partial,
    ``Props.AsmArm.c91_fp_partial,
    ``Props.AsmArm.c91_false,
    ``Props.AsmArm.c92_cswap,
    ``Props.AsmArm.c92_portable,
    ``Props.AsmArm.c92_other,
    ``Props.AESMem.c93_any,
    ``Props.AESMem.c93_inexact,
    ``Props.AESMem.c93_portable,
    ``Props.AESMem.c93_hardware,
    ``Props.AESMem.c93_inplace,
    ``Props.AESMem.c94_setKey,
    ``Props.AESMem.c94_blocks,
    ``Props.AESMem.c94_fips,
    ``Props.AESMem.c94_routines,
    ``Props.AESMem.c94_illegal,
    ``Props.SidhSteps.c95_generate,
    ``Props.SidhSteps.c95_derive,
    ``Props.SidhSteps.c96_encapsulate,
    ``Props.SidhSteps.c96_decapsulate,
    ``Props.AsmSteps.c97_sidh_amd64,
    ``Props.AsmSteps.c97_sidh_arm64,
    ``Props.AsmSteps.c97_swaps,
    ``Props.AsmSteps.c97_csidh,
    ``Props.AsmSteps.c97_keccak,
    ``Props.SidhBuild.c98_amd64,
    ``Props.SidhBuild.c98_generic,
    ``Props.SidhBuild.c98_import,
    ``Props.SidhBuild.c99_arm64_partial,
    ``Props.SidhBuild.c99_false,
    ``Props.SidhBuild.c99_not_same,
    ``Props.GoBuild.c100_exact,
    ``Props.GoBuild.c100_partial,
    ``Props.GoBuild.c100_false,
    ``Props.GoBuild.c100_code,
    ``Props.CsidhBuild.c101_amd64,
    ``Props.CsidhBuild.c101_generic,
    ``Props.CsidhBuild.c101_agree,
    ``Props.CsidhLive.c102_private,
    ``Props.CsidhLive.c102_public,
    ``Props.CsidhLive.c102_validate,
    ``Props.CsidhLive.c102_derive,
    ``Props.CsidhLive.c102_exchange,
    ``Props.CsidhLive.c102_enc,
    ``Props.CsidhLive.c102_dec,
    ``Props.CsidhLive.c102_multi,
    ``Props.Uniform.c103_csidh,
    ``Props.Uniform.c103_csidh_all,
    ``Props.Uniform.c103_sidh,
    ``Props.Uniform.c103_p434A,
    ``Props.Uniform.c103_sidh_all,
    ``Props.CsidhCancel.c104_exponents,
    ``Props.CsidhCancel.c104_start,
    ``Props.CsidhCancel.c104_undo,
    ``Props.CsidhCancel.c104_opposite,
    ``Props.CsidhCancel.c104_generated,
    ``Props.CsidhCancel.c105_twist,
    ``Props.CsidhCancel.c105_public,
    ``Props.CsidhSuper.c106_accept_partial,
    ``Props.CsidhSuper.c106_refuse,
    ``Props.CsidhSuper.c107_accept,
    ``Props.CsidhSuper.c107_made,
    ``Props.CsidhSuper.case_super,
    ``Props.CsidhSuper.c108_super,
    ``Props.CsidhSuper.c108_exponents,
    ``Props.CsidhSuper.c108_secret,
    ``Props.CsidhSuper.c108_commute,
    ``Props.CsidhSuper.c108_live,
    ``Props.Mkem.c109_reject,
    ``Props.Mkem.c109_decapsulate,
    ``Props.MkemSteps.c110_encapsulate,
    ``Props.MkemSteps.c110_decapsulate,
    ``Props.CsidhMem.c111_xAdd,
    ``Props.CsidhMem.c111_xDbl,
    ``Props.CsidhMem.c111_xDblAdd,
    ``Props.CsidhMem.c111_xMul,
    ``Props.CsidhMem.c111_xIso,
    ``Props.CsidhMem.c111_montEval,
    ``Props.CsidhMem.c111_cofactorMul,
    ``Props.CsidhMem.c111_api,
    ``Props.CsidhMem.c111_needed,
    ``Props.SidhMem.c111_field,
    ``Props.SidhMem.c111_frame,
    ``Props.SidhMem.c111_montgomery,
    ``Props.SidhMem.c111_p34,
    ``Props.SidhMem.c111_cswap,
    ``Props.SidhMem.c111_jinvariant,
    ``Props.SidhMem.c111_coordinateA,
    ``Props.SidhMem.c111_coefficients,
    ``Props.SidhMem.c111_powers,
    ``Props.SidhMem.c111_batch,
    ``Props.SidhMem.c111_needed,
    ``Props.Slices.c112_sum,
    ``Props.Slices.c112_nil,
    ``Props.Slices.c112_digest,
    ``Props.Slices.c113_export,
    ``Props.Slices.c113_within_partial,
    ``Props.Slices.c113_full_false,
    ``Props.Slices.c113_panic_writes,
    ``Props.Slices.c114_overlap,
    ``Props.DRBGSeed.c115_reseed_partial,
    ``Props.DRBGSeed.c115_init_partial,
    ``Props.DRBGSeed.c115_data_partial,
    ``Props.DRBGSeed.c115_ignored,
    ``Props.DRBGSeed.c115_full_false,
    ``Props.Sha3Steps.c116_value,
    ``Props.Sha3Steps.c116_steps,
    ``Props.Sha3Steps.c116_later,
    ``Props.AESSteps.c117_value,
    ``Props.AESSteps.c117_steps_partial,
    ``Props.AESSteps.c117_reveals_key,
    ``Props.AESSteps.c117_reveals_block,
    ``Props.AESSteps.c117_full_false,
    ``Props.SM3Steps.c118_value,
    ``Props.SM3Steps.c118_steps,
    ``Props.SM3Steps.c118_later,
    ``Props.CsidhSteps.c119_counts_partial,
    ``Props.CsidhSteps.c119_reveals,
    ``Props.CsidhSteps.c119_some,
    ``Props.CsidhSteps.c119_zero,
    ``Props.CsidhSteps.c119_full_false,
    ``Props.SidhInit.c120_private_partial,
    ``Props.SidhInit.c120_public_partial,
    ``Props.SidhInit.c120_unknown,
    ``Props.SidhInit.c120_private_lost,
    ``Props.SidhInit.c120_private_false,
    ``Props.SidhInit.c120_private_panics,
    ``Props.SidhInit.c120_public_kept,
    ``Props.SidhInit.c120_public_false,
    ``Props.DRBGSteps.c121_value,
    ``Props.DRBGSteps.c121_steps_partial,
    ``Props.DRBGSteps.c121_reveals,
    ``Props.DRBGSteps.c121_full_false,
    ``Props.DRBGSteps.c121_not_hidden,
    ``Props.Failures.c122_sidh_import_partial,
    ``Props.Failures.c122_csidh_import_partial,
    ``Props.Failures.c122_drbg_partial,
    ``Props.Failures.c122_encaps_partial,
    ``Props.Failures.c122_sidh_generate,
    ``Props.Failures.c122_sidh_false,
    ``Props.Failures.c122_csidh_false,
    ``Props.Failures.c122_csidh_public,
    ``Props.SikePanic.c123_recovered,
    ``Props.SikePanic.c123_same,
    ``Props.SikePanic.c123_foreign,
    ``Props.SikeOverlap.c124_shakeSum,
    ``Props.SikeOverlap.c124_decapsulate,
    ``Props.SikeOverlap.c124_multi,
    ``Props.SikeOverlap.c124_encapsulate,
    ``Props.SikeOverlap.c124_encapsulate_disjoint,
    ``Props.SikeOverlap.c124_encapsulate_overlap,
    ``Props.Readers.c125_pieces_sidh,
    ``Props.Readers.c125_pieces_sike,
    ``Props.Readers.c125_pieces_mkem,
    ``Props.Readers.c125_pieces_csidh,
    ``Props.Readers.c125_any_sidh,
    ``Props.Readers.c125_any_sike,
    ``Props.Readers.c125_any_mkem,
    ``Props.Readers.c125_any_csidh,
    ``Props.Readers.c125_retry,
    ``Props.Readers.c125_fills_sidh,
    ``Props.Readers.c125_drbg,
    ``Props.Readers.c125_shake,
    ``Props.Readers.c125_shake_bytes,
    ``Props.Readers.c125_drbg_bytes,
    ``Props.Readers.c125_csidh_agree,
    ``Props.Readers.c125_sike_agree,
    ``Props.MkemPanic.c126_usable,
    ``Props.MkemPanic.c126_as_new,
    ``Props.MkemPanic.c126_abandoned,
    ``Props.MkemPanic.c126_abandoned_recipient,
    ``Props.MkemPanic.c126_same,
    ``Props.CsidhPanic.c127_same,
    ``Props.CsidhPanic.c127_pke,
    ``Props.CsidhPanic.c127_roundtrip,
    ``Props.CsidhPanic.c127_multi,
    ``Props.CsidhPanic.c127_encrypt,
    ``Props.CsidhPanic.c127_too_many,
    ``Props.CsidhPanic.c127_abandoned,
    ``Props.CsidhPanic.c127_public,
    ``Props.CsidhPanic.c127_open,
    ``Props.CsidhPanic.c127_derive,
    ``Props.CsidhPanic.c127_import,
    ``Props.CsidhShared.c128_alone,
    ``Props.CsidhShared.c128_secret,
    ``Props.CsidhShared.c128_accepts,
    ``Props.CsidhShared.c128_refuses,
    ``Props.CsidhShared.c128_ends,
    ``Props.CsidhShared.c128_undisturbed,
    ``Props.DRBGShared.c129_same,
    ``Props.DRBGShared.c129_no_panic,
    ``Props.DRBGShared.c129_repeats,
    ``Props.DRBGShared.c129_false,
    ``Props.DRBGShared.c129_serial_partial,
    ``Props.SikeShared.c130_same,
    ``Props.SikeShared.c130_mixed,
    ``Props.SikeShared.c130_leak,
    ``Props.SikeShared.c130_false,
    ``Props.SikeShared.c130_serial_partial,
    ``Props.SikeSharedDec.c131_same,
    ``Props.SikeSharedDec.c131_check,
    ``Props.SikeSharedDec.c131_bypass,
    ``Props.SikeSharedDec.c131_refused,
    ``Props.SikeSharedRun.c131_false,
    ``Props.SikeSharedDec.c131_serial_partial]
  for n in names do
    let ax ← collectAxioms n
    for a in ax do
      unless a == ``propext || a == ``Classical.choice || a == ``Quot.sound do
        throwError "{n} depends on {a}"
