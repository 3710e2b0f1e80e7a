{
"C01": ["proved", ["Props.Sha3.c01_stream", "Props.Sha3.c01_refines"], "Both build variants (portable, word-aliasing) with the Go permutation."],
"C02": ["proved", ["Props.Sha3.c02_keccakF", "Props.Sha3.c02_image_injective"], ""],
"C03": ["proved", ["Props.Sha3.c03_write_after_read"], ""],
"C04": ["proved", ["Props.Sha3.c04_reset", "Props.Sha3.c04_reset_custom", "Props.Sha3.c04_custom_exists"], "Names below 2^61 bytes."],
"C05": ["partial", ["Props.Sha3.c05_sum_partial", "Props.Sha3.c05_after_sum", "Props.Sha3.c05_full_false", "Props.Sha3.c05_second_sum_differs"], "The result is b followed by the digest; that Sum leaves the object usable is false for this code and its negation is proved."],
"C06": ["proved", ["Props.Sha3.c06_independent", "Props.Sha3.c06_clone", "Props.Sha3.c06_runs", "Props.Sha3.c06_plain_alive"], "Objects are values in the model: Clone copies every field and the prefix buffer."],
"C07": ["proved", ["Props.Sha3.c07_xorIn", "Props.Sha3.c07_copyOut", "Props.Sha3.c07_results"], ""],
"C08": ["partial", ["Props.Sha3.c08_cshake128_partial", "Props.Sha3.c08_cshake256_partial", "Props.Sha3.c08_code", "Props.Sha3.c08_full128_false"], "Holds unless the encoded prefix is a whole number of blocks; then it is false and the negation is proved with a witness."],
"C09": ["proved", ["Props.Sha3.c09_separation", "Props.Sha3.c09_output", "Props.Sha3.c09_padding"], ""],
"C10": ["proved", ["Props.Sha3.c10_no_names"], ""],
"C100": ["partial", ["Props.GoBuild.c100_exact", "Props.GoBuild.c100_partial", "Props.GoBuild.c100_false", "Props.GoBuild.c100_code"], "c100_exact says for which targets each package can be built. The full statement is false: SIDH on amd64 with noasm, CSIDH without noasm on other architectures than amd64 and arm64, and the random generator and mKEM on these and with noasm cannot be built (c100_false). Proved for amd64 and arm64 without noasm and appengine."],
"C101": ["proved", ["Props.CsidhBuild.c101_amd64", "Props.CsidhBuild.c101_generic", "Props.CsidhBuild.c101_agree"], "for every CPU and any content of registers, stack and destinations; c101_case is a complete key exchange on amd64"],
"C102": ["proved", ["Props.CsidhLive.c102_private", "Props.CsidhLive.c102_public", "Props.CsidhLive.c102_validate", "Props.CsidhLive.c102_derive", "Props.CsidhLive.c102_exchange", "Props.CsidhLive.c102_enc", "Props.CsidhLive.c102_dec", "Props.CsidhLive.c102_multi"], "Random bytes are a list; a call that uses it up has not returned (none). MeanBlocks (Spec/Expect.lean) sums, over k, the fraction of the 256^(64k) sources of k blocks on which the call has not returned, which is the mean number of blocks of 64 bytes that it reads. Messages have 16 bytes; the multi-recipient object has a fresh hash object (see C63)."],
"C103": ["proved", ["Props.Uniform.c103_csidh", "Props.Uniform.c103_csidh_all", "Props.Uniform.c103_sidh", "Props.Uniform.c103_p434A", "Props.Uniform.c103_sidh_all"], "AsLikely (Spec/Uniform.lean) compares the numbers of sources of n bytes, for every n. For 2-torsion keys over p434 the range is [0, 2^216), not the documented one (C37)."],
"C104": ["proved", ["Props.CsidhCancel.c104_exponents", "Props.CsidhCancel.c104_start", "Props.CsidhCancel.c104_undo", "Props.CsidhCancel.c104_opposite", "Props.CsidhCancel.c104_generated"], "for all lists of private keys and all random streams; the quotient of a curve by all points of order l is shown to be the curve itself, with the division polynomials of x-coordinates"],
"C105": ["proved", ["Props.CsidhCancel.c105_twist", "Props.CsidhCancel.c105_public"], "for all lists of private keys with opposite sums; uses the same group with the opposite endomorphism and the opposite x-coordinate"],
"C106": ["partial", ["Props.CsidhSuper.c106_accept_partial", "Props.CsidhSuper.c106_refuse"], "Missing: curves with a divisor d of p+1 and of the number of points, 2^64 < d <= 2 sqrt(p), for which primes are counted by mistake (see C69); c106_refuse has no such exception for curves without a common divisor above 2^64."],
"C107": ["proved", ["Props.CsidhSuper.c107_accept", "Props.CsidhSuper.c107_made", "Props.CsidhSuper.case_super"], "Hasse's theorem is proved in Lemmas/HasseBase.lean"],
"C108": ["proved", ["Props.CsidhSuper.c108_super", "Props.CsidhSuper.c108_exponents", "Props.CsidhSuper.c108_secret", "Props.CsidhSuper.c108_commute", "Props.CsidhSuper.c108_live"], ""],
"C109": ["proved", ["Props.Mkem.c109_reject", "Props.Mkem.c109_decapsulate"], ""],
"C11": ["proved", ["Props.Sha3.c11_shakeSum"], ""],
"C110": ["proved", ["Props.MkemSteps.c110_encapsulate", "Props.MkemSteps.c110_decapsulate"], ""],
"C111": ["proved", ["Props.CsidhMem.c111_xAdd", "Props.CsidhMem.c111_xDbl", "Props.CsidhMem.c111_xDblAdd", "Props.CsidhMem.c111_xMul", "Props.CsidhMem.c111_xIso", "Props.CsidhMem.c111_montEval", "Props.CsidhMem.c111_cofactorMul", "Props.CsidhMem.c111_api", "Props.CsidhMem.c111_needed", "Props.SidhMem.c111_field", "Props.SidhMem.c111_frame", "Props.SidhMem.c111_montgomery", "Props.SidhMem.c111_p34", "Props.SidhMem.c111_cswap", "Props.SidhMem.c111_jinvariant", "Props.SidhMem.c111_coordinateA", "Props.SidhMem.c111_coefficients", "Props.SidhMem.c111_powers", "Props.SidhMem.c111_batch", "Props.SidhMem.c111_needed"], "The combinations of locations that the hypotheses exclude are shown to go wrong by c111_needed; no call in the library has them."],
"C112": ["proved", ["Props.Slices.c112_sum", "Props.Slices.c112_nil", "Props.Slices.c112_digest"], "For every history, slice, capacity and content, with the memory afterwards and all later results."],
"C113": ["partial", ["Props.Slices.c113_export", "Props.Slices.c113_within_partial", "Props.Slices.c113_full_false", "Props.Slices.c113_panic_writes"], "False in the code: slice expressions reach up to the capacity, so a slice that is too short but has spare capacity is written behind its length. The exact effect on memory is proved for every slice; the claim holds for slices of at least the key's size."],
"C114": ["proved", ["Props.Slices.c114_overlap"], "For every reached generator and all positions of the two slices in one memory."],
"C115": ["partial", ["Props.DRBGSeed.c115_reseed_partial", "Props.DRBGSeed.c115_init_partial", "Props.DRBGSeed.c115_data_partial", "Props.DRBGSeed.c115_ignored", "Props.DRBGSeed.c115_full_false"], "The full statement is false of the code: bytes of entropy and of data behind the 48th are ignored without an error, and missing bytes count as zeros. c115_full_false gives two different 64-byte entropies after which two generators return the same bytes for ever. Proved: the state after Init, Reseed or a Read with data determines the first 48 bytes, padded with zeros, and nothing more."],
"C116": ["proved", ["Props.Sha3Steps.c116_value", "Props.Sha3Steps.c116_steps", "Props.Sha3Steps.c116_later"], "Steps recorded: outcomes of conditions, indices of bytes and words, places and lengths of copies, rounds. Time of a machine instruction, caches and the Go compiler are outside the model. The amd64 assembly permutation is covered by C97."],
"C117": ["partial", ["Props.AESSteps.c117_value", "Props.AESSteps.c117_steps_partial", "Props.AESSteps.c117_reveals_key", "Props.AESSteps.c117_reveals_block", "Props.AESSteps.c117_full_false"], "The full statement is false of the portable code: it looks up tables at indices that depend on key and block, and the indices read while one known block is enciphered determine the whole key, for every pair of keys and every block. Proved: the steps of any two keys of one length and any two blocks differ in table indices only, for Encrypt and Decrypt. Steps of the key expansion and of the overlap check are not recorded."],
"C118": ["proved", ["Props.SM3Steps.c118_value", "Props.SM3Steps.c118_steps", "Props.SM3Steps.c118_later"], "The unrolled body of compress is one step: it is a list of instructions without condition or index. Time of a machine instruction, caches and the Go compiler are outside the model."],
"C119": ["partial", ["Props.CsidhSteps.c119_counts_partial", "Props.CsidhSteps.c119_reveals", "Props.CsidhSteps.c119_some", "Props.CsidhSteps.c119_zero", "Props.CsidhSteps.c119_full_false"], "The full statement is false of the code: an isogeny of a degree is computed exactly as often as the private exponent says, so the degrees seen determine the private key up to signs. Proved: how often a degree is seen depends neither on the random source nor on the curve."],
"C12": ["proved", ["Props.Sha3.c12_leftEncode", "Props.Sha3.c12_minimal"], ""],
"C120": ["partial", ["Props.SidhInit.c120_private_partial", "Props.SidhInit.c120_public_partial", "Props.SidhInit.c120_unknown", "Props.SidhInit.c120_private_lost", "Props.SidhInit.c120_private_false", "Props.SidhInit.c120_private_panics", "Props.SidhInit.c120_public_kept", "Props.SidhInit.c120_public_false"], "False of the code (c120_private_false, c120_private_panics, c120_public_false): Init keeps a SIKE seed and the points of a public key. The partial theorems say when Init gives a new object; c120_private_lost and c120_public_kept say what it gives otherwise."],
"C121": ["partial", ["Props.DRBGSteps.c121_value", "Props.DRBGSteps.c121_steps_partial", "Props.DRBGSteps.c121_reveals", "Props.DRBGSteps.c121_full_false", "Props.DRBGSteps.c121_not_hidden"], "False of the code for the increment of the counter (c121_full_false, c121_not_hidden; c121_reveals says exactly what is given away); c121_steps_partial proves the claim for all other steps."],
"C122": ["partial", ["Props.Failures.c122_sidh_import_partial", "Props.Failures.c122_csidh_import_partial", "Props.Failures.c122_drbg_partial", "Props.Failures.c122_encaps_partial", "Props.Failures.c122_sidh_generate", "Props.Failures.c122_sidh_false", "Props.Failures.c122_csidh_false", "Props.Failures.c122_csidh_public"], "Holds for Import, Export, Init and Encapsulate. False of the code for key generation (c122_sidh_false, c122_csidh_false); c122_sidh_generate says exactly what is left, c122_csidh_public what the key left by CSIDH does."],
"C123": ["proved", ["Props.SikePanic.c123_recovered", "Props.SikePanic.c123_same", "Props.SikePanic.c123_foreign"], "Any history of calls with any arguments on one object, panics recovered, equals calls on new objects; same values as the model of C53-C57; Encapsulate to a key of another field panics after drawing the message."],
"C124": ["proved", ["Props.SikeOverlap.c124_shakeSum", "Props.SikeOverlap.c124_decapsulate", "Props.SikeOverlap.c124_multi", "Props.SikeOverlap.c124_encapsulate", "Props.SikeOverlap.c124_encapsulate_disjoint", "Props.SikeOverlap.c124_encapsulate_overlap"], "Slices are parts of one memory. Decapsulate and ShakeSum are right for every overlap, Encapsulate for slices that are apart."],
"C125": ["proved", ["Props.Readers.c125_pieces_sidh", "Props.Readers.c125_pieces_sike", "Props.Readers.c125_pieces_mkem", "Props.Readers.c125_pieces_csidh", "Props.Readers.c125_any_sidh", "Props.Readers.c125_any_sike", "Props.Readers.c125_any_mkem", "Props.Readers.c125_any_csidh", "Props.Readers.c125_retry", "Props.Readers.c125_fills_sidh", "Props.Readers.c125_drbg", "Props.Readers.c125_shake", "Props.Readers.c125_shake_bytes", "Props.Readers.c125_drbg_bytes", "Props.Readers.c125_csidh_agree", "Props.Readers.c125_sike_agree"], "Readers are arbitrary state machines; Lawful, Serves and Fills in Spec/Source.lean say what is asked of them. Two readers that deliver in pieces are shown to satisfy them."],
"C126": ["proved", ["Props.MkemPanic.c126_usable", "Props.MkemPanic.c126_as_new", "Props.MkemPanic.c126_abandoned", "Props.MkemPanic.c126_abandoned_recipient", "Props.MkemPanic.c126_same"], "Histories from var c MultiKEM on with any arguments; the object after a panic is part of the model."],
"C127": ["proved", ["Props.CsidhPanic.c127_same", "Props.CsidhPanic.c127_pke", "Props.CsidhPanic.c127_roundtrip", "Props.CsidhPanic.c127_multi", "Props.CsidhPanic.c127_encrypt", "Props.CsidhPanic.c127_too_many", "Props.CsidhPanic.c127_abandoned", "Props.CsidhPanic.c127_public", "Props.CsidhPanic.c127_open", "Props.CsidhPanic.c127_derive", "Props.CsidhPanic.c127_import"], "The exception for the first recipient after Enc or Dec is c63_false. The random source is the list of the bytes it still delivers; termination for infinite sources as in C75."],
"C128": ["proved", ["Props.CsidhShared.c128_alone", "Props.CsidhShared.c128_secret", "Props.CsidhShared.c128_accepts", "Props.CsidhShared.c128_refuses", "Props.CsidhShared.c128_ends", "Props.CsidhShared.c128_undisturbed"], "Byte accesses are atomic and in one order for all goroutines (see DESIGN.md); random sources are finite lists of bytes."],
"C129": ["partial", ["Props.DRBGShared.c129_same", "Props.DRBGShared.c129_no_panic", "Props.DRBGShared.c129_repeats", "Props.DRBGShared.c129_false", "Props.DRBGShared.c129_serial_partial"], "The code violates the property: two goroutines that read at the same time can get the same bytes (c129_repeats, for every generator in use; c129_false). Proved: no panic under any schedule of statements, and agreement with the sequential generator when calls do not interrupt each other (c129_serial_partial). Missing: interleaved calls, for which the claim is false. Statements are atomic steps in the model."],
"C13": ["proved", ["Props.Sha3.c13_read_split"], ""],
"C130": ["partial", ["Props.SikeShared.c130_same", "Props.SikeShared.c130_mixed", "Props.SikeShared.c130_leak", "Props.SikeShared.c130_false", "Props.SikeShared.c130_serial_partial"], "The code violates the property: goroutines that call Encapsulate on one KEM object at the same time can use the same message (c130_mixed), which gives one receiver the secret of the other (c130_leak) and an outcome of no order of the calls (c130_false). Proved: agreement with the sequential model when calls do not overlap (c130_serial_partial). Missing: overlapping calls, for which the claim is false. A call is two atomic steps in the model; Decapsulate is not modelled here."],
"C131": ["partial", ["Props.SikeSharedDec.c131_same", "Props.SikeSharedDec.c131_check", "Props.SikeSharedDec.c131_bypass", "Props.SikeSharedDec.c131_refused", "Props.SikeSharedRun.c131_false", "Props.SikeSharedDec.c131_serial_partial"], "The code violates the property: of goroutines that call Decapsulate on one KEM object at the same time, one may test its ciphertext with the scalar of another (c131_check), so that forged ciphertexts pass (c131_bypass) and good ones are refused (c131_refused); c131_false gives both on a test vector, with the secrets evaluated in the kernel. Proved: secrets of the specification when calls do not overlap (c131_serial_partial). Missing: overlapping calls. A call is two atomic steps in the model; that different inputs to SHAKE256 give different secrets is not proved."],
"C14": ["proved", ["Props.SM3.c14_stream", "Props.SM3.c14_stream_new", "Props.SM3.c14_history"], "Holds for every length; above 2^61 bytes the length field is reduced mod 2^64 on both sides."],
"C15": ["proved", ["Props.SM3.c15_compress", "Props.SM3.c15_short"], ""],
"C16": ["proved", ["Props.SM3.c16_sum_pure", "Props.SM3.c16_state", "Props.SM3.c16_repeat"], ""],
"C17": ["partial", ["Props.SM3.c17_write_partial", "Props.SM3.c17_count", "Props.SM3.c17_full_false"], "All data is absorbed; the count is wrong for every non-empty p (negation proved)."],
"C18": ["partial", ["Props.SM3.c18_sum_partial", "Props.SM3.c18_full_false"], "Sum(b) is the digest of data followed by b; appending is false for every non-empty b (negation proved)."],
"C19": ["proved", ["Props.SM3.c19_reset"], ""],
"C20": ["proved", ["Props.AES.c20_encrypt", "Props.AES.c20_short"], ""],
"C21": ["proved", ["Props.AES.c21_inverse", "Props.AES.c21_decrypt"], ""],
"C22": ["proved", ["Props.AES.c22_history"], ""],
"C23": ["partial", ["Props.AES.c23_agree_partial", "Props.AES.c23_wf", "Props.AES.c23_routines", "Props.AES.c23_full_false", "Props.AES.c23_illegal"], "Agreement proved for 32-byte keys on an instruction-level model of asm_amd64.s; false for 16-byte keys because the object always runs 14 rounds (negation proved)."],
"C24": ["proved", ["Props.DRBG.c24_inc", "Props.DRBG.c24_distinct"], ""],
"C25": ["proved", ["Props.DRBG.c25_conformance", "Props.DRBG.c25_no_panic"], ""],
"C26": ["partial", ["Props.DRBG.c26_whole_blocks_partial", "Props.DRBG.c26_short", "Props.DRBG.c26_full_false"], "Whole blocks conform for every length; the trailing partial block does not (negation proved)."],
"C27": ["partial", ["Props.DRBG.c27_distinct_partial", "Props.DRBG.c27_tail_repeats"], "Whole blocks are pairwise distinct; the trailing partial block always repeats the one before it (proved)."],
"C28": ["partial", ["Props.DRBG.c28_refused_partial", "Props.DRBG.c28_full_false"], "True for initialised generators; a new one accepts any entropy and Reseed checks nothing (negation proved)."],
"C29": ["partial", ["Props.DRBG.c29_history_partial", "Props.DRBG.c29_full_false"], "Only Key and V of the history matter; they do matter (negation proved)."],
"C30": ["proved", ["Props.DRBG.c30_update", "Props.DRBG.run_det", "Props.DRBG.c30_platform"], ""],
"C31": ["partial", ["Props.Utils.c31_flags_partial", "Props.Utils.c31_full_false", "Props.Utils.c31_old"], "HasAES is read from EBX instead of ECX (negation proved); the other flags are right."],
"C32": ["proved", ["Props.SidhKeys.c32_cpick", "Props.SidhKeys.c32_fromBytes", "Props.SidhKeys.c32_toBytes", "Props.SidhKeys.c32_bytes_roundtrip", "Props.SidhKeys.c32_elt_roundtrip"], "All lengths, both selector values, every byte length and word count."],
"C33": ["proved", ["Props.SidhKeys.c33_register", "Props.SidhKeys.c33_history", "Props.SidhKeys.c33_std"], "Every history of Register calls; the three ids registered by the package init functions."],
"C34": ["proved", ["Props.SidhKeys.c34_new", "Props.SidhKeys.c34_accepts", "Props.SidhKeys.c34_export_import", "Props.SidhKeys.c34_import_export"], "All fields and all 64-bit key variants."],
"C35": ["proved", ["Props.SidhKeys.c35_import", "Props.SidhKeys.c35_canonical", "Props.SidhKeys.c35_export", "Props.SidhKeys.c35_roundtrip"], "For a new key object (see C36 for a used one)."],
"C36": ["partial", ["Props.SidhKeys.c36_false", "Props.SidhKeys.c36_import_used_partial"], "False of the code for every field and variant: c36_false proves the negation. The partial theorem says what Import into a used object gives."],
"C37": ["partial", ["Props.SidhKeys.c34_new", "Props.SidhKeys.c37_error", "Props.SidhKeys.c37_function", "Props.SidhKeys.c37_range", "Props.SidhKeys.c37_p434A_partial", "Props.SidhKeys.c37_p434A_false", "Props.SidhKeys.c37_wrapper_false"], "Holds except for 2-torsion keys over p434, whose last byte is always 0 (c37_p434A_false), and except for the wrapper GeneratePrivateKey, which drops the error (c37_wrapper_false)."],
"C38": ["proved", ["Props.SidhArith.c38_add_sub", "Props.SidhArith.c38_alias"], ""],
"C39": ["proved", ["Props.SidhArith.c39_mod", "Props.SidhArith.c39_canonical"], ""],
"C40": ["proved", ["Props.SidhArith.c40_mul"], ""],
"C41": ["proved", ["Props.SidhArith.c41_rdc"], "That every value met by the library is below p*R is part of the proofs of C43 and C45."],
"C42": ["proved", ["Props.SidhArith.c42_cswap", "Props.SidhArith.c42_cswap2"], ""],
"C43": ["proved", ["Props.SidhFp2.c43_field", "Props.SidhFp2.c43_inv", "Props.SidhFp2.c43_total", "Props.SidhFp2.c43_constants"], ""],
"C44": ["proved", ["Props.CsidhField.c44_prime", "Props.SidhFp2.c44_sidh"], "Primality of all four moduli is proved in the kernel (Pocklington/Lucas certificates); the tables of the code are the limbs of those numbers."],
"C45": ["proved", ["Props.SidhFp2.c45_montgomery", "Props.SidhFp2.c45_from"], ""],
"C46": ["proved", ["Props.SidhCurve.c46_double", "Props.SidhCurve.c46_triple", "Props.SidhCurve.c46_dbladd"], "for all three fields, on word arrays, against Mathlib's group of points of the curve y^2 = x^3 + A x^2 + x"],
"C47": ["proved", ["Props.SidhCurve.c47_ladder", "Props.SidhCurve.c47_short"], "the condition on P+[z]Q is met by the points of the tables (Props.SidhCurve.start)"],
"C48": ["proved", ["Props.SidhCurve.c48_three", "Props.SidhCurve.c48_four"], "for kernel points of order 3, and of order 4 with double other than (0,0); the image map follows doubling and differential addition of the image curve (XRep), kernel points go to Z = 0"],
"C49": ["proved", ["Props.SidhCurve.c49_A", "Props.SidhCurve.c49_B"], "against the plain chain of Spec/SidhChain.lean; for every curve and kernel point of full order"],
"C50": ["proved", ["Props.SidhCurve.c50_recover", "Props.SidhCurve.c50_convert", "Props.SidhCurve.c50_j", "Props.SidhCurve.c50_isomorphic"], "j-invariant is that of Mathlib's WeierstrassCurve"],
"C51": ["proved", ["Props.SidhCurve.c51_agree", "Props.SidhCurve.c51_agree_sent", "Props.SidhCurve.c51_agree_repr"], "no assumption on the curves: the parameter tables are checked by the kernel; also with keys sent as bytes"],
"C52": ["proved", ["Props.SidhKeys.c52_publicKey", "Props.SidhKeys.c52_derive"], "Includes termination of the key generation and derivation code on every public key, on valid curve or not."],
"C53": ["proved", ["Props.Sike.c53_correct", "Props.Sike.c53_encapsulate"], "Correctness for all keys, objects in any state and random streams, at the byte level; Encapsulate refines the SIKE specification (Spec/Sike)."],
"C54": ["proved", ["Props.Sike.c54_decapsulate", "Props.Sike.c54_rejects"], "Decapsulate refines the specification for every ciphertext of the right length; rejected ones give the hash of S and the ciphertext."],
"C55": ["partial", ["Props.Sike.c55_encaps_panics", "Props.Sike.c55_decaps_panics", "Props.Sike.c55_encaps_iff", "Props.Sike.c55_decaps_iff", "Props.Sike.c55_encaps_returns", "Props.Sike.c55_oversize_partial", "Props.SikeRun.c55_oversize_false"], "Panics and errors exactly as stated, for keys of the object's field. The clause on larger buffers is false of the code: the secret is the hash of the whole buffer (c55_oversize_partial), and c55_oversize_false runs a case."],
"C56": ["proved", ["Props.Sike.c56_history_free"], "Any sequence of calls on one object gives what each gives on a new object with the rest of the random source."],
"C57": ["proved", ["Props.Sike.c57_canonical", "Props.Sike.c57_unique"], "Accepted ciphertexts have a canonical public-key part."],
"C58": ["proved", ["Props.Mkem.c58_correct", "Props.Mkem.c58_spec", "Props.Mkem.c60_allocate"], "For every list of key pairs, every state of the object and after any number of decapsulations on it."],
"C59": ["partial", ["Props.Mkem.c59_receiver_partial", "Props.Mkem.c59_false"], "False of the code: c59_false is a concrete counterexample; c59_receiver_partial says exactly when a separate receiver gets the common key."],
"C60": ["proved", ["Props.Mkem.c60_independent", "Props.Mkem.c60_too_many", "Props.Mkem.c60_random_source", "Props.Mkem.c60_allocate"], "Common part and i-th ciphertext are those of the specification (Spec/Mkem)."],
"C61": ["proved", ["Props.CsidhAgree.c61_roundtrip", "Props.CsidhAgree.case_pke"], "Unconditional: agreement of the key exchange is proved (C75). Needs that both calls return, i.e. that the random sources deliver enough bytes; case_pke is a full run with different non-zero keys."],
"C62": ["partial", ["Props.CsidhPke.c62_mask_partial", "Props.CsidhPke.c62_false", "Props.CsidhPke.c62_multi_false", "Props.CsidhPke.c62_runs"], "False of this code: for a refused key the mask is a constant, proved in c62_false and c62_multi_false. The partial theorem says what the mask is."],
"C63": ["partial", ["Props.CsidhPke.c63_encrypt_partial", "Props.CsidhPke.c63_false", "Props.CsidhPke.c63_example"], "False of this code after PKE.Enc on the same object (c63_false). Proved for objects whose hash object is fresh, which Encrypt keeps fresh."],
"C64": ["proved", ["Props.CsidhField.c64_field", "Props.CsidhField.c64_inverse", "Props.CsidhField.c64_canonical", "Props.CsidhField.c64_constants", "Props.CsidhField.c64_alias"], "Every operation of fp511.go on canonical inputs is the operation of the prime field, and the result is canonical. The assembly variants are C84 and C85."],
"C65": ["proved", ["Props.CsidhField.c65_mul", "Props.CsidhField.c65_compare", "Props.CsidhField.c65_sub", "Props.CsidhField.c65_swap", "Props.CsidhField.c65_alias"], "For all word values, including non-canonical ones. The assembly variants are C84 and C85."],
"C66": ["proved", ["Props.CsidhCurve.c66_ladder", "Props.CsidhCurve.c66_origin", "Props.CsidhCurve.c66_origin_odd", "Props.CsidhCurve.c66_zero", "Props.CsidhCurve.c66_points"], "Points over any extension of the prime field; the exceptional point (0,0) and k = 0 are settled by separate theorems."],
"C67": ["proved", ["Props.CsidhKeys.c67_generate", "Props.CsidhKeys.c67_error", "Props.CsidhKeys.c67_range", "Props.CsidhKeys.c67_roundtrip", "Props.CsidhKeys.c67_short", "Props.CsidhKeys.c67_long_panics"], "exact description of the key generated from every stream; a random source is a byte stream that ends"],
"C68": ["proved", ["Props.CsidhKeys.c68_import_iff", "Props.CsidhKeys.c68_roundtrip", "Props.CsidhKeys.c68_reused", "Props.CsidhKeys.c68_rejects"], "c68_reused shows that Import into a used key is wrong, which the property excludes by speaking of a new key"],
"C69": ["partial", ["Props.CsidhValidate.c69_accept_partial", "Props.CsidhValidate.c69_round", "Props.CsidhValidate.c69_round_origin"], "The outcome of every round is described. Missing: for points S with [p+1]S = (0,0) the ladder is not exact and primes not dividing the order are counted; c69_round_origin says exactly when such a key is accepted, so the statement fails for such points; no curve with one is known (see DESIGN.md)."],
"C70": ["proved", ["Props.CsidhKeys.c70_first", "Props.CsidhKeys.c70_panic"], ""],
"C71": ["proved", ["Props.CsidhKeys.c71_counts", "Props.CsidhKeys.c71_direction"], "on a record of the isogenies kept by the model beside the variables of the code; that the formulas evaluated are isogenies of that degree is not part of this property"],
"C72": ["proved", ["Props.CsidhKeys.c72_derive", "Props.CsidhKeys.c68_rejects"], ""],
"C73": ["proved", ["Props.CsidhValidate.c73_reject"], ""],
"C74": ["proved", ["Props.CsidhZero.c74_derive", "Props.CsidhZero.c74_public", "Props.CsidhZero.c74_ends"], "Stated for the key of 37 zero bytes."],
"C75": ["proved", ["Props.CsidhAgree.c75_agree", "Props.CsidhAgree.c75_wire", "Props.CsidhAgree.case_agree"], "All private keys (any 37 bytes), all random streams for which the four calls return. The proof follows the code through the quotients of the starting curve by subgroups determined by the exponents. case_agree: a run with exponent 1 at 3 and exponent -1 at 5, evaluated by the kernel."],
"C76": ["proved", ["Props.CsidhAgree.c76_public", "Props.CsidhAgree.c76_secret", "Props.CsidhAgree.c76_valid", "Props.CsidhAgree.c76_derive"], "For keys reachable from generated ones."],
"C77": ["proved", ["Props.CsidhAgree.c77_exponents", "Props.CsidhAgree.c77_order"], "Positive and negative exponents are summed separately; that they cancel is not part of the statement."],
"C78": ["proved", ["Props.AsmArith.c78_add", "Props.AsmArith.c78_sub", "Props.AsmArith.c78_adl", "Props.AsmArith.c78_sul", "Props.AsmArith.c78_mod", "Props.AsmArith.c78_values"], "Symbolic execution of the instructions, checked by the kernel; the programs are printed from the .s files by gen/asmgen.py."],
"C79": ["proved", ["Props.AsmArith.c79_mul", "Props.AsmArith.c79_value"], "For all inputs without the top bit, which includes all elements below 2p."],
"C80": ["partial", ["Props.AsmArith.c80_p434_partial", "Props.AsmArith.c80_false"], "True for p434; false for p503 and p751 (all-ones operands), where the carry of the sum of the operand halves is dropped. c79_mul is what holds there."],
"C81": ["proved", ["Props.AsmArith.c81_rdc", "Props.AsmArith.c81_value"], "Agreement for every 24-word input; the value for inputs below p·R."],
"C82": ["partial", ["Props.AsmArith.c82_bp_partial", "Props.AsmArith.c82_false"], "False for mulP434 with ADX (saves BP in the word where the assembler saved the caller's BP) and for rdcP751 with BMI2 (uses BP with an empty frame); proved for all other routines."],
"C83": ["proved", ["Props.AsmArith.c83_mont"], ""],
"C84": ["proved", ["Props.AsmCsidh.c84_mul512", "Props.AsmCsidh.c84_mul576", "Props.AsmCsidh.c84_mulBmi", "Props.AsmCsidh.c84_mulRdc", "Props.AsmCsidh.c84_field"], "The instructions after macro expansion, on the machine of Model/Asm.lean; every CPU, every alias."],
"C85": ["proved", ["Props.AsmCsidh.c85_sidh", "Props.AsmCsidh.c85_sidh_portable", "Props.AsmCsidh.c85_csidh", "Props.AsmCsidh.c85_other"], "Two different arrays. c85_other shows that for choice 2, which the code declares undefined, the CSIDH assembly differs from the portable code."],
"C86": ["proved", ["Props.AsmCsidh.c86_portable", "Props.AsmCsidh.c86_fips"], "All 24 rounds of keccakf_amd64.s, with the lanes it keeps complemented."],
"C87": ["proved", ["Props.AsmArm.c87_add", "Props.AsmArm.c87_sub", "Props.AsmArm.c87_adl", "Props.AsmArm.c87_sul", "Props.AsmArm.c87_mod", "Props.AsmArm.c87_values"], "All words, five aliasings, both fields."],
"C88": ["proved", ["Props.AsmArm.c88_mul751", "Props.AsmArm.c88_value751", "Props.AsmArm.c88_rdc", "Props.AsmArm.c88_rdc_value"], "All words; the amd64 product needs the top bits clear, this one does not."],
"C89": ["partial", ["Props.AsmArm.c89_exact", "Props.AsmArm.c89_exact_sq", "Props.AsmArm.c89_iff", "Props.AsmArm.c89_mul503_partial", "Props.AsmArm.c89_false", "Props.AsmArm.c89_false_field"], "False of the code: mulP503 loses a carry (arith_arm64.s:485-509) and is off by 2^832. The exact result is proved for all words, with the exact set of operands for which it is right, and a reduced field element whose square is wrong also modulo p."],
"C90": ["partial", ["Props.AsmArm.c90_mont_partial", "Props.AsmArm.c89_false_field"], "For p751 without condition; for p503 for the operands where mulP503 is right (C89), the negation for the others."],
"C91": ["partial", ["Props.AsmArm.c91_fp_partial", "Props.AsmArm.c91_false", "Props.AsmArm.c92_cswap"], "False of the code: the products and the Montgomery reductions use R29 as a scratch register. Proved for the other routines."],
"C92": ["proved", ["Props.AsmArm.c92_cswap", "Props.AsmArm.c92_portable", "Props.AsmArm.c92_other"], "For all choice bytes what the routine does; agreement with the portable swap for 0 and 1, and that it fails for other choices (which the source leaves undefined)."],
"C93": ["proved", ["Props.AESMem.c93_any", "Props.AESMem.c93_inexact", "Props.AESMem.c93_portable", "Props.AESMem.c93_hardware", "Props.AESMem.c93_inplace"], "Slices are assumed to lie in the address space without wrapping, as Go slices do."],
"C94": ["proved", ["Props.AESMem.c94_setKey", "Props.AESMem.c94_blocks", "Props.AESMem.c94_fips", "Props.AESMem.c94_routines", "Props.AESMem.c94_illegal"], "For 16 and 24 byte keys the arm64 object has the fault of C23 (fourteen rounds), since it equals the amd64 object."],
"C95": ["proved", ["Props.SidhSteps.c95_generate", "Props.SidhSteps.c95_derive"], "Steps are calls, branch outcomes, indices and lengths at the level of the Go code; timing of instructions is outside the model."],
"C96": ["proved", ["Props.SidhSteps.c96_encapsulate", "Props.SidhSteps.c96_decapsulate"], "Same notion of steps as C95, with requests to SHAKE256 and the random source."],
"C97": ["proved", ["Props.AsmSteps.c97_sidh_amd64", "Props.AsmSteps.c97_sidh_arm64", "Props.AsmSteps.c97_swaps", "Props.AsmSteps.c97_csidh", "Props.AsmSteps.c97_keccak"], "Addresses are block and word; the AES assembly is in another machine and not part of this claim."],
"C98": ["proved", ["Props.SidhBuild.c98_amd64", "Props.SidhBuild.c98_generic", "Props.SidhBuild.c98_import"], "All functions of the three packages, all made keys, any machine state at each call of a routine."],
"C99": ["partial", ["Props.SidhBuild.c99_arm64_partial", "Props.SidhBuild.c99_false", "Props.SidhBuild.c99_not_same"], "Proved for p434 and p751. False for p503, where mulP503 of arm64 loses a carry (C89): c99_false gives a public key and a private key for which the two builds derive different secrets."]
}
