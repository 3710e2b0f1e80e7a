{"id": "C01", "title": "SHAKE/SHA3 stream conformance", "statement": "For a fresh SHA3-224/256/384/512, SHAKE128 or SHAKE256 object, writing a message in any pieces and then reading in any pieces returns, concatenated, exactly the FIPS 202 sponge output (pad10*1, domain suffix, rate of the instance) of the concatenated message; no call fails or panics.", "quantifier": "all messages, all splittings of the message into Write calls, all splittings of the output into Read calls", "why_tests_cant": "Unbounded message lengths and unboundedly many splittings; off-by-one errors at rate boundaries only show for particular splits.", "anchors": ["hash/sha3/sha3.go: Write, Read, finalize_sha3, Reset", "hash/sha3/shake.go: NewShake128, NewShake256", "hash/sha3/sha3.go: New224, New256, New384, New512"]}
{"id": "C02", "title": "Keccak permutation conformance (Go version)", "statement": "The portable permutation maps every 1600-bit state to Keccak-p[1600,24] of FIPS 202 (theta, rho, pi, chi, iota, 24 rounds).", "quantifier": "all 2^1600 states", "why_tests_cant": "State space of 2^1600 values; known-answer tests touch a handful.", "anchors": ["hash/sha3/keccakf.go: keccakF1600, rc"]}
{"id": "C03", "title": "Write after Read is rejected without effect", "statement": "Once anything has been read from a sponge object, Write returns (0, ErrWriteAfterRead) and leaves the object's future output unchanged; Reset makes it writable again.", "quantifier": "all histories of Write/Read/Sum/Reset calls and all write arguments", "why_tests_cant": "Quantifies over all histories.", "anchors": ["hash/sha3/sha3.go: state.Write, ErrWriteAfterRead, Reset"]}
{"id": "C04", "title": "Reset forgets history", "statement": "After any history, Reset puts a SHA3/SHAKE object in a state from which every later call sequence gives the same results as a newly created object; for cSHAKE the same with the (N,S) prefix re-absorbed.", "quantifier": "all histories before Reset and all call sequences after it", "why_tests_cant": "Universal over histories; stale buffer bytes only matter for particular histories.", "anchors": ["hash/sha3/sha3.go: Reset", "hash/sha3/shake.go: Reset"]}
{"id": "C05", "title": "Sum appends the digest (hash.Hash contract)", "statement": "Sum(b) of a SHA3 object returns b followed by the digest of everything written, and leaves the object usable: a second Sum gives the same result and writing may continue.", "quantifier": "all messages, all b, all histories", "why_tests_cant": "Universal over histories and buffers. (The appended digest is right but the 'does not change state' half is false for this code.)", "anchors": ["hash/sha3/sha3.go: Sum"]}
{"id": "C06", "title": "Clone is an independent equal copy", "statement": "A clone of a SHAKE object gives for every later call sequence the same results as the original would have, and no operation on one changes results of the other.", "quantifier": "all histories before cloning, all interleavings after", "why_tests_cant": "All interleavings of two objects' operations.", "anchors": ["hash/sha3/shake.go: Clone"]}
{"id": "C07", "title": "Portable and unaligned XOR/copy agree", "statement": "The portable and the word-aliasing implementations of block absorb and block output give the same state and the same bytes, so results don't depend on the platform.", "quantifier": "all states and all buffers of the lengths the package uses", "why_tests_cant": "All states and all buffers.", "anchors": ["hash/sha3/xor_generic.go: xorInGeneric, copyOutGeneric", "hash/sha3/xor_unaligned.go: xorInUnaligned, copyOutUnaligned"]}
{"id": "C08", "title": "cSHAKE prefix conforms to SP 800-185", "statement": "NewCShake128/256(N,S) computes the cSHAKE function of NIST SP 800-185 for every N and S.", "quantifier": "all byte strings N and S (below 2^61 bytes), all messages", "why_tests_cant": "All names and customisation strings; the deviation needs an encoded prefix length that is an exact multiple of the rate.", "anchors": ["hash/sha3/shake.go: newCShake, bytepad, leftEncode, NewCShake128, NewCShake256"]}
{"id": "C09", "title": "cSHAKE domain separation", "statement": "Two cSHAKE objects of the same kind created with different (N,S), not both empty, absorb different first blocks: no two (N,S) pairs share an absorbed prefix, and no prefix is an initial part of another one.", "quantifier": "all pairs of (N,S) pairs", "why_tests_cant": "Injectivity over an infinite domain.", "anchors": ["hash/sha3/shake.go: leftEncode, bytepad, newCShake"]}
{"id": "C10", "title": "cSHAKE without names is SHAKE", "statement": "NewCShake128(nil,nil) and NewCShake256(nil,nil) behave as NewShake128 and NewShake256 for every call sequence.", "quantifier": "all call sequences", "why_tests_cant": "All call sequences.", "anchors": ["hash/sha3/shake.go: NewCShake128, NewCShake256"]}
{"id": "C11", "title": "ShakeSum one-shot functions", "statement": "ShakeSum128(h,d) and ShakeSum256(h,d) fill h, of any length, with the first len(h) bytes of SHAKE128/256 of d.", "quantifier": "all data and all output lengths", "why_tests_cant": "All inputs and output lengths.", "anchors": ["hash/sha3/shake.go: ShakeSum128, ShakeSum256"]}
{"id": "C12", "title": "leftEncode is the SP 800-185 encoding", "statement": "leftEncode(x) is the shortest big-endian encoding of x preceded by its length byte, for every uint64 value including 0 and 2^64-1.", "quantifier": "all 2^64 values", "why_tests_cant": "2^64 inputs.", "anchors": ["hash/sha3/shake.go: leftEncode"]}
{"id": "C13", "title": "Sponge reads never repeat or skip", "statement": "Reading n then m bytes from a sponge returns the same bytes as reading n+m at once: output is one infinite stream, and Read always fills the whole buffer with nil error.", "quantifier": "all states reachable by any history, all n and m", "why_tests_cant": "All histories and lengths.", "anchors": ["hash/sha3/sha3.go: state.Read"]}
{"id": "C14", "title": "SM3 streaming conformance", "statement": "For a fresh or reset SM3 object, writing a message of less than 2^61 bytes in any pieces and then calling Sum(nil) returns the GB/T 32905-2016 SM3 digest of the concatenated message.", "quantifier": "all messages below 2^61 bytes and all splittings", "why_tests_cant": "All messages and splittings; padding branches depend on length mod 64.", "anchors": ["hash/sm3/sm3.go: Write, Sum, Reset, New", "hash/sm3/compress.go: compress"]}
{"id": "C15", "title": "SM3 compression conformance", "statement": "The unrolled compression loop equals the SM3 compression function iterated over the blocks, for every chaining value and every whole number of blocks.", "quantifier": "all chaining values, all block sequences", "why_tests_cant": "2^768 inputs per block.", "anchors": ["hash/sm3/compress.go: compress, r1, r2, sm3e, ch, maj, p0, p1"]}
{"id": "C16", "title": "SM3 Sum leaves the object unchanged", "statement": "Sum on an SM3 object doesn't change it: repeated Sum gives the same digest and writing can continue as if Sum had not been called.", "quantifier": "all histories", "why_tests_cant": "All histories.", "anchors": ["hash/sm3/sm3.go: Sum"]}
{"id": "C17", "title": "SM3 Write reports what it consumed", "statement": "Write(p) consumes all of p and returns (len(p), nil), as io.Writer demands. (False for this code: the count is wrong in most calls.)", "quantifier": "all histories and all p", "why_tests_cant": "All histories and lengths.", "anchors": ["hash/sm3/sm3.go: Write"]}
{"id": "C18", "title": "SM3 Sum appends to its argument", "statement": "Sum(b) returns b followed by the digest of the data written. (False for this code: it returns the digest of the data written followed by b.)", "quantifier": "all histories, all b", "why_tests_cant": "All histories.", "anchors": ["hash/sm3/sm3.go: Sum"]}
{"id": "C19", "title": "SM3 Reset forgets history", "statement": "After any history, Reset leaves an SM3 object whose later results equal those of a new object.", "quantifier": "all histories", "why_tests_cant": "All histories; stale buffer contents.", "anchors": ["hash/sm3/sm3.go: Reset, New"]}
{"id": "C20", "title": "AES encryption conforms to FIPS 197", "statement": "For every 16-, 24- or 32-byte key and every 16-byte block the table-driven Encrypt returns the FIPS 197 cipher of the block.", "quantifier": "all keys of the three sizes, all blocks", "why_tests_cant": "2^384 key/block pairs.", "anchors": ["drbg/internal/aes/generic.go: encryptBlockGo, expandKeyGo", "drbg/internal/aes/cipher.go: AES.SetKey, AES.Encrypt", "drbg/internal/aes/const.go: te0..te3, sbox0"]}
{"id": "C21", "title": "AES decryption inverts encryption", "statement": "For every key of a legal size and every block, Decrypt(Encrypt(b)) = b and Encrypt(Decrypt(b)) = b.", "quantifier": "all keys of the three sizes, all blocks", "why_tests_cant": "2^384 pairs.", "anchors": ["drbg/internal/aes/generic.go: decryptBlockGo, expandKeyGo", "drbg/internal/aes/const.go: td0..td3, sbox1"]}
{"id": "C22", "title": "AES key sizes are checked", "statement": "SetKey accepts exactly keys of 16, 24 and 32 bytes; any other length returns a KeySizeError with that length and leaves the previously set key in force; an accepted key fully replaces the earlier one.", "quantifier": "all key lengths, all histories of SetKey", "why_tests_cant": "All lengths and histories.", "anchors": ["drbg/internal/aes/cipher.go: AES.SetKey, KeySizeError"]}
{"id": "C23", "title": "AES hardware and portable paths agree", "statement": "The AES-NI object and the portable object compute the same function for every key both accept. (Only for 32-byte keys in this code; the hardware object runs 14 rounds whatever the key size.)", "quantifier": "all keys, all blocks", "why_tests_cant": "All keys and blocks.", "anchors": ["drbg/internal/aes/cipher_asm.go: AESAsm.SetKey, AESAsm.Encrypt", "drbg/internal/aes/asm_amd64.s"]}
{"id": "C24", "title": "DRBG counter increment", "statement": "The counter step adds one modulo 2^128 to the big-endian value of V, so 2^128 successive counters are distinct.", "quantifier": "all counter values", "why_tests_cant": "2^128 values with carry chains of every length.", "anchors": ["drbg/ctr_drbg.go: CtrDrbg.inc"]}
{"id": "C25", "title": "DRBG output conforms to SP 800-90A for whole blocks", "statement": "After Init on a new object and any sequence of Reseed and ReadWithAdditionalData calls, whenever requests are whole multiples of 16 bytes, the outputs are those of CTR_DRBG with AES-256 without derivation function of SP 800-90A for the zero-padded inputs.", "quantifier": "all entropy, personalization, additional data, all call sequences with whole-block requests", "why_tests_cant": "All call sequences.", "anchors": ["drbg/ctr_drbg.go: Init, Reseed, ReadWithAdditionalData, Read, update"]}
{"id": "C26", "title": "DRBG output conforms to SP 800-90A for every length", "statement": "The same for requests of any length: the output is the first n bytes of the whole-block output. (False for this code: a trailing partial block repeats the previous counter value.)", "quantifier": "all call sequences, all lengths", "why_tests_cant": "All lengths and histories.", "anchors": ["drbg/ctr_drbg.go: ReadWithAdditionalData"]}
{"id": "C27", "title": "DRBG never repeats a block inside one request", "statement": "The 16-byte blocks of one request's output come from pairwise distinct counter values. (True up to the last partial block, false with it.)", "quantifier": "all states, all lengths up to 2^128 blocks", "why_tests_cant": "All states and lengths.", "anchors": ["drbg/ctr_drbg.go: ReadWithAdditionalData, inc"]}
{"id": "C28", "title": "DRBG Init refuses too little entropy", "statement": "Init and Reseed return false, without changing the generator, when given less entropy than the security strength. (False for Init on a new object in this code: the strength is compared before it is set.)", "quantifier": "all entropy lengths, all histories", "why_tests_cant": "All lengths and histories.", "anchors": ["drbg/ctr_drbg.go: Init, Reseed, NewCtrDrbg"]}
{"id": "C29", "title": "DRBG Init is history-free", "statement": "Init on a used generator gives the same generator as Init on a new one. (False for this code: key and V are not cleared.)", "quantifier": "all histories", "why_tests_cant": "All histories.", "anchors": ["drbg/ctr_drbg.go: Init"]}
{"id": "C30", "title": "DRBG rekeys after every request", "statement": "Every successful read ends with the SP 800-90A update, so key and V after a request are the function CTR_DRBG_Update prescribes of the ones at the end of generation, and two generators with equal state, equal inputs stay equal.", "quantifier": "all states, all requests", "why_tests_cant": "All states.", "anchors": ["drbg/ctr_drbg.go: ReadWithAdditionalData, update"]}
{"id": "C31", "title": "CPU feature flags", "statement": "With CPUID leaf 7 unavailable every feature flag is false; otherwise BMI2, ADX and RDSEED are the architected bits of leaf 7 EBX, and HasAES is the AES-NI bit of leaf 1. (The last is false in this code: EBX instead of ECX is examined.)", "quantifier": "all CPUID register contents", "why_tests_cant": "All register contents; tests see one CPU.", "anchors": ["utils/cpuid_amd64.go: init, cpuid, bitn", "utils/cpuid_amd64.s: cpuid"]}
{"id": "C32", "title": "Conditional pick and compare helpers", "statement": "Cpick(1,in1,in2) yields in1 and Cpick(0,in1,in2) yields in2 for equal-length inputs; field-element conversions to and from bytes are little-endian and mutually inverse on their ranges.", "quantifier": "all byte strings, all field elements", "why_tests_cant": "All inputs.", "anchors": ["dh/sidh/common/utils.go: Cpick, BytesToFp2, Fp2ToBytes"]}
{"id": "C33", "title": "Parameter registry", "statement": "Params(id) returns the registered set for each registered id and panics for any other; Register panics rather than overwrite an id.", "quantifier": "all registration histories and ids", "why_tests_cant": "All histories.", "anchors": ["dh/sidh/common/params.go: Register, Params"]}
{"id": "C34", "title": "Private key export/import round trip", "statement": "For SIDH and SIKE private keys of every variant and field, Import accepts exactly byte strings of length Size(), Export after Import returns the same bytes, and Import after Export gives an equal key.", "quantifier": "all byte strings, all keys, all key variants, all fields", "why_tests_cant": "All keys.", "anchors": ["dh/sidh/sidh.go: PrivateKey.Import, Export, Size"]}
{"id": "C35", "title": "Public key export/import round trip", "statement": "For a new public key, Import accepts exactly byte strings of PublicKeySize, and Export after Import returns the encoding reduced to canonical form modulo p: equal to the input iff every coordinate was below p; a key and its re-imported export denote the same field elements.", "quantifier": "all byte strings, all keys, all fields", "why_tests_cant": "All encodings, including non-canonical ones.", "anchors": ["dh/sidh/sidh.go: Import, Export, Size", "dh/sidh/internal/p434/fp2.go: ToMontgomery, FromMontgomery", "dh/sidh/common/utils.go: BytesToFp2, Fp2ToBytes"]}
{"id": "C36", "title": "Public key Import replaces the previous content", "statement": "Import into a key object that already holds a key gives the same key as Import into a new object. (False in this code: the bytes are OR-ed into the old content.)", "quantifier": "all previous contents, all imported strings", "why_tests_cant": "All pairs of contents.", "anchors": ["dh/sidh/sidh.go: PublicKey.Import", "dh/sidh/common/utils.go: BytesToFp2"]}
{"id": "C37", "title": "Generated private keys lie in the documented range", "statement": "PrivateKey.Generate produces a scalar below 2^SecretBitLen in SecretByteLen bytes, with the top bit rule of the key variant, an error from the random source is returned, and a key is a function of the random bytes only.", "quantifier": "all random byte streams, all variants, all fields", "why_tests_cant": "All random streams.", "anchors": ["dh/sidh/sidh.go: Generate, GeneratePrivateKey"]}
{"id": "C38", "title": "Prime-field addition and subtraction", "statement": "For arguments in [0,2p), add and subtract return values in [0,2p) congruent to the sum and difference modulo p, for each of p434, p503 and p751, also when the destination is one of the arguments.", "quantifier": "all pairs of residues", "why_tests_cant": "2^868 pairs; carries of every length.", "anchors": ["dh/sidh/internal/p434/arith_generic.go: addP434, subP434, adlP434, sulP434"]}
{"id": "C39", "title": "Prime-field strong reduction is canonical", "statement": "Reducing a value in [0,2p) gives the unique representative in [0,p); equality of reduced values is equality modulo p.", "quantifier": "all values below 2p", "why_tests_cant": "All values.", "anchors": ["dh/sidh/internal/p434/arith_generic.go: modP434"]}
{"id": "C40", "title": "Multi-precision product", "statement": "The word-by-word multiplication returns the exact double-length product of its arguments.", "quantifier": "all pairs of arguments of FpWords words", "why_tests_cant": "2^896 pairs, accumulators must not overflow.", "anchors": ["dh/sidh/internal/p434/arith_generic.go: mulP434"]}
{"id": "C41", "title": "Montgomery reduction", "statement": "Reduction of any double-length value below R*p (in fact any value met by the library) returns a value below 2p congruent to value*R^-1 modulo p.", "quantifier": "all double-length values in range", "why_tests_cant": "All values; depends on the zero words of p+1 being skipped correctly.", "anchors": ["dh/sidh/internal/p434/arith_generic.go: rdcP434"]}
{"id": "C42", "title": "Conditional swap is exact", "statement": "The masked swaps exchange their arguments when the condition is 1 and leave them unchanged when it is 0, bit for bit.", "quantifier": "all values", "why_tests_cant": "All values.", "anchors": ["dh/sidh/internal/p434/arith_generic.go: cswapP434", "dh/csidh/fp511_generic.go: cswap512"]}
{"id": "C43", "title": "Quadratic-field arithmetic is the field F_{p^2}", "statement": "add, sub, mul, sqr, inv of the extension field compute the operations of F_p[i]/(i^2+1) on the denoted elements and keep components in [0,2p); inv of a nonzero element is its inverse and inv of 0 is 0.", "quantifier": "all elements", "why_tests_cant": "All elements.", "anchors": ["dh/sidh/internal/p434/fp2.go: add, sub, mul, sqr, inv, p34"]}
{"id": "C44", "title": "The moduli are prime", "statement": "p434 = 2^216*3^137-1, p503 = 2^250*3^159-1, p751 = 2^372*3^239-1 and p511 = 4*l1*...*l74-1 as encoded in the limb constants are prime, and -1 is a non-square modulo each, so that the fields used are fields.", "quantifier": "four concrete moduli; primality quantifies over all divisors", "why_tests_cant": "Primality is a statement over all divisors.", "anchors": ["dh/sidh/internal/p434/params.go: P434 constants", "dh/csidh/consts.go: p, primes"]}
{"id": "C45", "title": "Montgomery conversions are mutually inverse", "statement": "Conversion out of Montgomery form yields the canonical representative, and converting in and out is the identity modulo p for every encoding that fits the wire length.", "quantifier": "all encodings", "why_tests_cant": "All encodings.", "anchors": ["dh/sidh/internal/p434/fp2.go: ToMontgomery, FromMontgomery"]}
{"id": "C46", "title": "SIDH x-only doubling, tripling and differential addition follow the group law", "statement": "On any nonsingular Montgomery curve over the quadratic field the x-only doubling (any number of times), tripling (any number of times) and combined double-and-add of the SIDH code give the x-coordinates of 2P, 3P and P+Q of the elliptic-curve group, including when P, Q or the result is infinity or has a zero coordinate; for P+Q the difference P-Q is neither infinity nor (0,0).", "quantifier": "all three fields, all nonsingular curves, all points (for P+Q: difference not infinity or (0,0))", "why_tests_cant": "All curves and points.", "anchors": ["dh/sidh/internal/p434/curve.go: xDbladd, Pow2k, Pow3k"]}
{"id": "C47", "title": "Three-point ladder", "statement": "Given x(P), x(Q), x(P-Q), the ladder returns x(P+[k]Q) for every scalar k of the given bit length, whenever no P+[z]Q with |z| < 2^n (n the bit length) is infinity or (0,0), as is the case for the points of the parameter tables.", "quantifier": "all curves, points, scalars and bit lengths", "why_tests_cant": "All scalars.", "anchors": ["dh/sidh/internal/p434/curve.go: ScalarMul3Pt"]}
{"id": "C48", "title": "Isogeny formulas", "statement": "The 3- and 4-isogeny routines return the coefficients of the image curve and map x-coordinates of points on the domain curve to x-coordinates on the image curve, compatibly with doubling and differential addition, with the kernel point mapped to infinity.", "quantifier": "all curves, kernel points and points", "why_tests_cant": "All curves.", "anchors": ["dh/sidh/internal/p434/curve.go: GenerateCurve, EvaluatePoint (isogeny3, isogeny4)"]}
{"id": "C49", "title": "Isogeny-tree traversal", "statement": "The stack-based strategy traversal computes the same image curve and images as the plain quadratic-time chain of isogenies, for the strategies in the tables; the stack index never leaves its array.", "quantifier": "all kernel points, all curves; all strategies of the tables", "why_tests_cant": "All inputs.", "anchors": ["dh/sidh/internal/p434/core.go: traverseTreePublicKeyA, traverseTreeSharedKeyA, traverseTreePublicKeyB, traverseTreeSharedKeyB"]}
{"id": "C50", "title": "Curve coefficient recovery and j-invariant", "statement": "The coefficient recovered from x(P), x(Q), x(P-Q) is that of the curve the points lie on, and the j-invariant routine returns the j-invariant of the Montgomery curve, so isomorphic curves give equal secrets.", "quantifier": "all curves", "why_tests_cant": "All curves.", "anchors": ["dh/sidh/internal/p434/curve.go: RecoverCoordinateA, Jinvariant, CalcCurveParamsEquiv3, CalcCurveParamsEquiv4, RecoverCurveCoefficients3, RecoverCurveCoefficients4"]}
{"id": "C51", "title": "SIDH key agreement", "statement": "For all private keys a and b, the secret derived from (a, public key of b) equals the one derived from (b, public key of a), for p434, p503 and p751.", "quantifier": "all pairs of private keys", "why_tests_cant": "2^430 pairs of keys.", "anchors": ["dh/sidh/sidh.go: PrivateKey.GeneratePublicKey, DeriveSecret", "dh/sidh/internal/p434/core.go: PublicKeyGenA, PublicKeyGenB, DeriveSecretA, DeriveSecretB"]}
{"id": "C52", "title": "DeriveSecret refuses mismatched keys", "statement": "DeriveSecret panics (never returns a value) when the keys have the same variant or different fields, and GeneratePublicKey panics when variants or fields differ; otherwise both return.", "quantifier": "all key pairs", "why_tests_cant": "All pairs of keys.", "anchors": ["dh/sidh/sidh.go: GeneratePublicKey, DeriveSecret"]}
{"id": "C53", "title": "SIKE correctness", "statement": "For every key pair made by GeneratePublicKey from an imported or generated private key and all random bytes, Decapsulate of a ciphertext produced by Encapsulate (into a buffer of exactly CiphertextSize bytes) returns the secret Encapsulate returned.", "quantifier": "all key pairs, all randomness", "why_tests_cant": "All keys and randomness.", "anchors": ["dh/sidh/sike.go: Encapsulate, Decapsulate, encrypt, decrypt, generateCiphertext"]}
{"id": "C54", "title": "SIKE implicit rejection", "statement": "For every ciphertext of the right length that re-encryption doesn't reproduce, Decapsulate returns without error the key derived from the secret value S and that ciphertext; which ciphertexts are accepted doesn't depend on S.", "quantifier": "all ciphertexts, all keys", "why_tests_cant": "All ciphertexts.", "anchors": ["dh/sidh/sike.go: Decapsulate"]}
{"id": "C55", "title": "SIKE length checks", "statement": "Encapsulate panics (nothing derived) exactly when the object is not allocated, the key is not a SIKE key or a buffer is too short; the only error it returns is that of the random source. Decapsulate panics when the ciphertext length or secret length is wrong. Both work for every legal length; buffers larger than CiphertextSize must not change the secret. (The last clause is false in this code for Encapsulate.)", "quantifier": "all buffer lengths", "why_tests_cant": "All lengths.", "anchors": ["dh/sidh/sike.go: Encapsulate, Decapsulate"]}
{"id": "C56", "title": "SIKE objects are history-free", "statement": "The results of Encapsulate and Decapsulate depend only on their arguments, the parameter set and the bytes drawn from the random source in that call, not on earlier calls of the same object.", "quantifier": "all histories of calls", "why_tests_cant": "All histories.", "anchors": ["dh/sidh/sike.go: KEM, Reset, Allocate"]}
{"id": "C57", "title": "SIKE decapsulation is a function of ciphertext bytes only as encoded", "statement": "If Decapsulate accepts a ciphertext then its public-key part is the canonical encoding produced by re-encryption: no second encoding of the same curve points is accepted.", "quantifier": "all ciphertexts", "why_tests_cant": "All ciphertexts; malleability.", "anchors": ["dh/sidh/sike.go: Decapsulate"]}
{"id": "C58", "title": "Multi-recipient KEM correctness", "statement": "After Encapsulate for a list of public keys on one object, Decapsulate on the same object with the i-th private key and i-th ciphertext returns the common secret, for every recipient.", "quantifier": "all numbers of recipients, all keys, all randomness", "why_tests_cant": "All recipients lists.", "anchors": ["kem/mkem/sike.go: MultiKEM.Encapsulate, Decapsulate"]}
{"id": "C59", "title": "Multi-recipient KEM works for a separate receiver", "statement": "A receiver with its own object recovers the common secret from the transmitted data. (False in this code: the re-encryption check uses the sender object's stored message.)", "quantifier": "all objects, keys, histories", "why_tests_cant": "All histories.", "anchors": ["kem/mkem/sike.go: MultiKEM.Decapsulate"]}
{"id": "C60", "title": "Multi-recipient ciphertexts are independent per recipient", "statement": "The i-th ciphertext depends only on the i-th public key and the shared randomness, not on the other recipients or their order; a list longer than the allocated number panics.", "quantifier": "all recipient lists", "why_tests_cant": "All lists.", "anchors": ["kem/mkem/sike.go: MultiKEM.Encapsulate, Allocate"]}
{"id": "C61", "title": "CSIDH public-key encryption round trip", "statement": "If pk is the public key generated from the private key sk, Dec(sk, Enc(pk, m)) = m for every 16-byte message m, on any allocated objects, used before or not, and whatever their random sources deliver.", "quantifier": "all messages, all keys, all randomness", "why_tests_cant": "All messages and keys.", "anchors": ["kem/mkem/csidh.go: PKE.Enc, PKE.Dec, Allocate"]}
{"id": "C62", "title": "CSIDH encryption to an invalid key is refused", "statement": "Enc for a public key that fails validation doesn't reveal the message. (False in this code: the message is masked with a constant keystream.)", "quantifier": "all invalid public keys, all messages", "why_tests_cant": "All invalid keys.", "anchors": ["kem/mkem/csidh.go: PKE.Enc, MultiPKE.Encrypt", "dh/csidh/csidh.go: DeriveSecret"]}
{"id": "C63", "title": "CSIDH multi-encryption objects are history-free", "statement": "MultiPKE.Encrypt masks each recipient's message with the keystream of that recipient's shared secret whatever was done with the object before. (False in this code after PKE.Enc on the embedded object.)", "quantifier": "all histories", "why_tests_cant": "All histories.", "anchors": ["kem/mkem/csidh.go: MultiPKE.Encrypt, PKE.Enc"]}
{"id": "C64", "title": "CSIDH field arithmetic", "statement": "addRdc, subRdc, mulRdc, sqrRdc, modExpRdc of the CSIDH field compute the operations of F_p on canonical representatives and return canonical representatives, also when the result overwrites an argument.", "quantifier": "all pairs of canonical elements, all exponents", "why_tests_cant": "2^1022 pairs.", "anchors": ["dh/csidh/fp511.go: addRdc, subRdc, mulGeneric, modExpRdcCommon, modExpRdc512, modExpRdc64, isNonQuadRes", "dh/csidh/fp511_generic.go: mulRdc"]}
{"id": "C65", "title": "CSIDH multi-precision helpers", "statement": "mul512 multiplies by a word modulo 2^512, mul576 returns the exact product, eqFp, isLess, isZero and sub512/limb helpers decide the numeric relations they name.", "quantifier": "all values", "why_tests_cant": "All values.", "anchors": ["dh/csidh/fp511_generic.go: mul512, mul576, cswap512", "dh/csidh/fp511.go: isLess, isZero, equal"]}
{"id": "C66", "title": "CSIDH scalar multiplication", "statement": "For every k with 0 < k < 2^512, every non-singular curve and every point other than (0,0) whose x-coordinate lies in the field, the scalar multiplication used by the group action and by validation returns x([k]P). (It fails at (0,0) for odd k > 1, where infinity is returned.)", "quantifier": "all scalars below 2^512, all non-singular Montgomery coefficients, all points with an x-coordinate in the prime field", "why_tests_cant": "The set of scalars, curves and points is far too large, and the exceptional inputs of the formulas are not hit by random ones.", "anchors": ["dh/csidh/curve.go: xMul, xDblAdd, xDbl, xAdd"]}
{"id": "C67", "title": "CSIDH private keys", "statement": "GeneratePrivateKey yields 74 exponents each in [-5,5], or the random source's error; Import(Export(k)) restores k; Import of a shorter string returns false with no panic. (Import of a longer string panics in this code.)", "quantifier": "all random streams, all byte strings", "why_tests_cant": "All streams and strings.", "anchors": ["dh/csidh/csidh.go: GeneratePrivateKey, PrivateKey.Import, Export"]}
{"id": "C68", "title": "CSIDH public keys", "statement": "Import accepts exactly 64-byte strings, Export after Import into a new key returns the same bytes, and DeriveSecret/Validate reject every coefficient that is not below p or equals 2 or -2.", "quantifier": "all byte strings", "why_tests_cant": "All strings.", "anchors": ["dh/csidh/csidh.go: Import, Export, DeriveSecret, Validate"]}
{"id": "C69", "title": "CSIDH validation soundness", "statement": "If Validate accepts a coefficient, there is a point on that curve whose order, a divisor of p+1, exceeds 4*sqrt(p).", "quantifier": "all public keys, all random streams", "why_tests_cant": "All keys.", "anchors": ["dh/csidh/csidh.go: Validate, cofactorMul"]}
{"id": "C70", "title": "CSIDH random field elements", "statement": "Every random field element drawn is below p and is the first candidate below p of the random stream.", "quantifier": "all random streams", "why_tests_cant": "All streams, unbounded rejection loop.", "anchors": ["dh/csidh/csidh.go: randFp"]}
{"id": "C71", "title": "CSIDH group action bookkeeping", "statement": "When the group action terminates it has performed, for every prime l_i, exactly |e_i| isogenies of degree l_i with the direction given by the sign of e_i, whatever points were drawn.", "quantifier": "all private keys, all random streams", "why_tests_cant": "All keys and streams; an unbounded loop.", "anchors": ["dh/csidh/csidh.go: groupAction"]}
{"id": "C72", "title": "CSIDH deriving is total on failures", "statement": "DeriveSecret returns false and leaves the output buffer untouched for an invalid public key, and true with a 64-byte value below p otherwise.", "quantifier": "all public keys, private keys, random streams", "why_tests_cant": "All keys.", "anchors": ["dh/csidh/csidh.go: DeriveSecret"]}
{"id": "C73", "title": "CSIDH validation refuses only bad keys", "statement": "If Validate refuses a public key, the key is not a number below p, or is 2 or -2, or some point on the curve, over some extension of the field, with an x-coordinate in the field has an order that does not divide p+1. So the key of a supersingular curve is never refused, whatever random numbers are drawn.", "quantifier": "all public keys, all random streams", "why_tests_cant": "It must hold for every curve and every random point.", "anchors": ["dh/csidh/csidh.go: Validate, cofactorMul"]}
{"id": "C74", "title": "CSIDH: the zero private key acts trivially", "statement": "With a private key whose exponents are all zero, GeneratePublicKey yields the coefficient 0 and DeriveSecret outputs exactly the other party's public key, for every valid public key and all random numbers drawn.", "quantifier": "all public keys, all random streams", "why_tests_cant": "All keys and all sequences of random points.", "anchors": ["dh/csidh/csidh.go: groupAction, DeriveSecret, GeneratePublicKey"]}
{"id": "C75", "title": "CSIDH key agreement", "statement": "Two parties generate public keys from any private keys and exchange them (as objects, or exported and imported). Then both calls of DeriveSecret succeed and both parties get the same 64 bytes, whatever the random sources deliver in the four calls.", "quantifier": "all pairs of private keys, all random streams", "why_tests_cant": "Tests try a few pairs of keys and random streams out of 11^148 and infinitely many.", "anchors": ["dh/csidh/csidh.go: GeneratePublicKey, DeriveSecret, groupAction, Validate", "dh/csidh/curve.go: xIso, xMul"]}
{"id": "C76", "title": "CSIDH results do not depend on the random source", "statement": "The public key is determined by the private key, and the shared secret by the private key and the other party's public key, whatever random numbers the calls draw; and keys made by GeneratePublicKey (or by DeriveSecret from such keys) are never refused by Validate or DeriveSecret.", "quantifier": "all private keys, all random streams", "why_tests_cant": "Each random stream leads through other points and another order of isogenies.", "anchors": ["dh/csidh/csidh.go: groupAction, Validate, GeneratePublicKey, DeriveSecret"]}
{"id": "C77", "title": "CSIDH: any number of parties, in any order", "statement": "If secrets are passed on as public keys from party to party, the result depends only on, for each of the 74 primes, the sum of the positive exponents and the sum of the negative exponents of all private keys used: not on the order of the parties or on how the exponents are split between them.", "quantifier": "all lists of private keys, all random streams", "why_tests_cant": "Any number of parties, all keys, all random streams.", "anchors": ["dh/csidh/csidh.go: groupAction, GeneratePublicKey, DeriveSecret, PublicKey.Import"]}
{"id": "C78", "title": "amd64 addition and subtraction agree with the portable code", "statement": "On amd64, adding, subtracting and reducing field elements, and adding and subtracting double-width numbers, write exactly the words the portable (noasm) build writes, touch no other memory, and do so when the result overwrites an operand or the operands are the same.", "quantifier": "all word arrays (also out of the field's range), all ways the three arguments can alias, all three kinds of CPU, all three fields, all prior contents of registers and stack frame", "why_tests_cant": "The carry chains have rare cases (a carry through all words) that random inputs do not meet; tests compare a few hundred random values.", "anchors": ["dh/sidh/internal/p434/arith_amd64.s", "dh/sidh/internal/p503/arith_amd64.s", "dh/sidh/internal/p751/arith_amd64.s", "dh/sidh/internal/*/arith_decl.go", "addP434", "subP434", "adlP434", "sulP434", "modP434"]}
{"id": "C79", "title": "amd64 multiplication of field elements is exact", "statement": "On amd64 the product of two field elements is their exact product, the same as in the portable build, on every CPU and also when both operands are the same array.", "quantifier": "all pairs of field elements below 2p (indeed all words without the top bit), three fields, three kinds of CPU", "why_tests_cant": "A dropped carry in a Karatsuba or ADX path shows for a tiny share of inputs.", "anchors": ["dh/sidh/internal/p434/arith_amd64.s", "dh/sidh/internal/p503/arith_amd64.s", "dh/sidh/internal/p751/arith_amd64.s", "dh/sidh/internal/*/arith_decl.go", "mulP434", "mulP503", "mulP751"]}
{"id": "C80", "title": "amd64 multiplication agrees with the portable code on arbitrary words", "statement": "The assembly multiplication, documented as z = x*y without a condition on the operands, gives the same words as the portable one for every input.", "quantifier": "all 12-word arrays, three fields, three kinds of CPU", "why_tests_cant": "The failing inputs have their top bit set, which tests with field elements never produce.", "anchors": ["dh/sidh/internal/p434/arith_amd64.s", "dh/sidh/internal/p503/arith_amd64.s", "dh/sidh/internal/p751/arith_amd64.s", "dh/sidh/internal/*/arith_decl.go", "mulP434", "mulP503", "mulP751"]}
{"id": "C81", "title": "amd64 Montgomery reduction agrees with the portable code", "statement": "On amd64 the Montgomery reduction writes exactly the words the portable build writes and touches nothing but its result and, as documented, its input; for inputs below p·R the result is below 2p and equals the input divided by R modulo p.", "quantifier": "all 24-word inputs, three fields, three kinds of CPU", "why_tests_cant": "Rare carries; the routines for newer CPUs run only on those.", "anchors": ["dh/sidh/internal/p434/arith_amd64.s", "dh/sidh/internal/p503/arith_amd64.s", "dh/sidh/internal/p751/arith_amd64.s", "dh/sidh/internal/*/arith_decl.go", "rdcP434", "rdcP503", "rdcP751"]}
{"id": "C82", "title": "The amd64 routines preserve the frame pointer", "statement": "Every assembly routine returns with the caller's frame pointer (BP) unchanged, as Go's calling convention for assembly requires.", "quantifier": "all inputs, all routines, three kinds of CPU", "why_tests_cant": "Nothing in the tests looks at BP; a wrong BP only breaks profilers and tracers that unwind by it.", "anchors": ["dh/sidh/internal/p434/arith_amd64.s", "dh/sidh/internal/p503/arith_amd64.s", "dh/sidh/internal/p751/arith_amd64.s", "dh/sidh/internal/*/arith_decl.go"]}
{"id": "C83", "title": "amd64 multiply-and-reduce is multiplication in the field", "statement": "On amd64 a multiplication followed by a reduction returns, for all field elements, an element below 2p that is the product divided by R modulo p, whichever of the three code paths the CPU selects.", "quantifier": "all pairs of field elements below 2p, three fields, three kinds of CPU", "why_tests_cant": "All inputs and all CPUs.", "anchors": ["dh/sidh/internal/p434/arith_amd64.s", "dh/sidh/internal/p503/arith_amd64.s", "dh/sidh/internal/p751/arith_amd64.s", "dh/sidh/internal/*/arith_decl.go", "dh/sidh/internal/*/fp2.go: mul, sqr"]}
{"id": "C84", "title": "CSIDH multiplications on amd64 agree with the portable code", "statement": "On amd64 the products of a 512-bit number with a 64-bit word and the Montgomery product of two field elements write exactly the words the portable build writes, whichever code path the CPU selects and however result and operands alias; nothing else of the caller's memory and not its frame pointer changes. On field elements the result is the product in F_p.", "quantifier": "all operand words, all three kinds of CPU, all ways the pointers can alias, all contents of registers and stack at the call", "why_tests_cant": "Rare carry patterns; the MULX/ADX path runs only on newer CPUs.", "anchors": ["dh/csidh/fp511_amd64.s: mul512, mul576, mulBmiAsm", "dh/csidh/fp511_amd64.go: mulRdc", "dh/csidh/fp511.go: mulGeneric, hasADXandBMI2"]}
{"id": "C85", "title": "The amd64 conditional swaps swap", "statement": "With choice 0 the assembly swaps of CSIDH and of the three SIDH fields leave both operands as they are; with choice 1 they exchange exactly the words of the field elements. Only the low byte of the argument slot counts. The SIDH swaps agree with the portable ones for every choice byte.", "quantifier": "all pairs of operands, all argument slots, all contents of registers and stack at the call", "why_tests_cant": "All inputs; a swap that loses one bit for some operands passes sampled tests.", "anchors": ["dh/csidh/fp511_amd64.s: cswap512", "dh/sidh/internal/p434/arith_amd64.s: cswapP434", "dh/sidh/internal/p503/arith_amd64.s: cswapP503", "dh/sidh/internal/p751/arith_amd64.s: cswapP751"]}
{"id": "C86", "title": "The amd64 Keccak permutation is the one of FIPS 202", "statement": "On amd64 the permutation applied to the 25 lanes of a SHA-3 state gives exactly the lanes that the portable Go code gives, which are those of Keccak-p[1600,24]; it writes nothing else and keeps the frame pointer.", "quantifier": "all 2^1600 states, all contents of registers and stack at the call", "why_tests_cant": "All states; the unrolled assembly with complemented lanes is checked by known answers only.", "anchors": ["hash/sha3/keccakf_amd64.s: keccakF1600", "hash/sha3/keccakf.go: keccakF1600"]}
{"id": "C87", "title": "arm64 additions, subtractions and reductions agree with the portable code", "statement": "On arm64 the modular addition and subtraction, the double-width addition and subtraction and the final reduction of the p503 and p751 fields write exactly the words the portable build writes, however result and operands alias, and nothing else of the caller's memory. For operands below 2p the values are the sum and difference modulo 2p and the residue modulo p.", "quantifier": "all operand words, both fields, all ways the pointers can alias, all contents of registers and stack at the call", "why_tests_cant": "All inputs; this code runs on arm64 machines only, so the usual CI never executes it.", "anchors": ["dh/sidh/internal/p503/arith_arm64.s: add, sub, adl, sul, mod", "dh/sidh/internal/p751/arith_arm64.s: add, sub, adl, sul, mod"]}
{"id": "C88", "title": "The arm64 product for p751 and the arm64 Montgomery reductions agree with the portable code", "statement": "On arm64 the product of two p751 elements is the exact double-width product for all operand words, and the Montgomery reductions of both fields return the words of the portable reduction without touching their input: below 2p, and R times the result is the input modulo p.", "quantifier": "all operand words, all contents of registers and stack at the call", "why_tests_cant": "Rare carry patterns; arm64 only.", "anchors": ["dh/sidh/internal/p751/arith_arm64.s: mulP751", "dh/sidh/internal/p503/arith_arm64.s: rdcP503", "dh/sidh/internal/p751/arith_arm64.s: rdcP751"]}
{"id": "C89", "title": "The arm64 product for p503 agrees with the portable code", "statement": "On arm64 the product of two p503 elements is the exact double-width product.", "quantifier": "all operand words, in particular all pairs of field elements below p", "why_tests_cant": "One lost carry occurs for a tiny fraction of the operands and is not met by random tests.", "anchors": ["dh/sidh/internal/p503/arith_arm64.s: mulP503"]}
{"id": "C90", "title": "arm64 multiply-and-reduce is multiplication in the field", "statement": "On arm64 a multiplication followed by a reduction returns, for all field elements, an element below 2p that is the product divided by R modulo p.", "quantifier": "all pairs of field elements below 2p, both fields", "why_tests_cant": "All inputs; arm64 only.", "anchors": ["dh/sidh/internal/p503/arith_arm64.s", "dh/sidh/internal/p751/arith_arm64.s", "dh/sidh/internal/*/fp2.go: mul, sqr"]}
{"id": "C91", "title": "The arm64 assembly preserves the frame pointer", "statement": "Each arm64 routine of the p503 and p751 fields returns with the caller's frame pointer R29.", "quantifier": "all operand words, all contents of registers and stack at the call", "why_tests_cant": "A clobbered frame pointer matters only when the runtime or a profiler unwinds the stack at that moment.", "anchors": ["dh/sidh/internal/p503/arith_arm64.s", "dh/sidh/internal/p751/arith_arm64.s"]}
{"id": "C92", "title": "The arm64 conditional swaps swap", "statement": "With choice 0 the arm64 swaps leave both operands as they are; with choice 1 they exchange exactly the words of the field elements, as the portable swap does. Only the low byte of the argument slot counts.", "quantifier": "all pairs of operands, all argument slots, all contents of registers and stack at the call", "why_tests_cant": "All inputs; arm64 only.", "anchors": ["dh/sidh/internal/p503/arith_arm64.s: cswapP503", "dh/sidh/internal/p751/arith_arm64.s: cswapP751"]}
{"id": "C93", "title": "Block encryption on overlapping buffers", "statement": "Encrypt and Decrypt of the AES objects panic exactly when a buffer is shorter than a block or the two blocks share a byte of memory at different indices. Otherwise, also when source and destination are the same buffer, the destination block holds the FIPS 197 image of what the source block held before the call and no other byte of memory changes; encrypting a buffer in place and decrypting it again restores memory. AnyOverlap and InexactOverlap report exactly whether two slices share a byte, and share one at different indices.", "quantifier": "all memories, all pairs of slices in the address space, all legal keys (32 bytes for the hardware object), amd64, arm64 and portable", "why_tests_cant": "All relative positions of two buffers of any length, at any address including the ends of the address space.", "anchors": ["drbg/internal/aes/tools.go: AnyOverlap, InexactOverlap", "drbg/internal/aes/cipher.go: Encrypt, Decrypt", "drbg/internal/aes/cipher_asm.go: Encrypt, Decrypt"]}
{"id": "C94", "title": "The arm64 hardware AES object computes what the amd64 one computes", "statement": "On arm64 SetKey with a key of 16, 24 or 32 bytes leaves the hardware AES object in the same state as on amd64, whatever the vector registers held, and Encrypt and Decrypt of any object give the same result; so with a 32-byte key they are FIPS 197. The assembly routines are right for all three key sizes when given the right number of rounds. Keys of other sizes crash.", "quantifier": "all keys, all previous states of the object, all buffers, all initial vector register contents", "why_tests_cant": "All keys and blocks; needs an arm64 machine.", "anchors": ["drbg/internal/aes/asm_arm64.s: encryptBlockAsm, decryptBlockAsm, expandKeyAsm", "drbg/internal/aes/cipher_asm.go"]}
{"id": "C95", "title": "SIDH steps do not depend on the keys", "statement": "The sequence of field-arithmetic calls, of branch outcomes and of indices used to read the private key, the tables and the stack of points is the same for any two private keys of a field and variant: in GeneratePublicKey, and in DeriveSecret for any two public keys of the other party, also keys that are no curve, and any buffers of the same length. Both functions return.", "quantifier": "all fields, all pairs of private keys of one variant, all pairs of contents of the public key objects, all shared-secret buffers of equal, sufficient length", "why_tests_cant": "A statement about all pairs of secrets; a test sees timing noise of a few runs.", "anchors": ["dh/sidh/api.go: GeneratePublicKey, DeriveSecret", "dh/sidh/internal/p434/core.go", "dh/sidh/internal/p434/curve.go", "dh/sidh/internal/p434/fp2.go"]}
{"id": "C96", "title": "SIKE steps do not depend on keys, messages or validity of the ciphertext", "statement": "The sequence of field-arithmetic calls, branch outcomes, table indices, hash and random-source requests of Encapsulate is the same for all public keys and all random bytes, and that of Decapsulate is the same for all private keys, public keys and ciphertexts of the right length. In particular the steps do not tell an honest ciphertext from a forged one.", "quantifier": "all fields, all pairs of KEM objects in any state reachable or not that holds the right buffers, all pairs of keys and ciphertexts, all buffers of equal, sufficient length", "why_tests_cant": "All pairs of secrets and ciphertexts.", "anchors": ["dh/sidh/sike.go: Encapsulate, Decapsulate", "dh/sidh/api.go"]}
{"id": "C97", "title": "Assembly routines access the same memory for all data", "statement": "Every assembly routine of the SIDH fields (amd64 on each kind of CPU, arm64), the conditional swaps, the CSIDH products and Keccak-f reads and writes the same words of memory in the same order in any two calls with the same pointers, whatever the operands, the swap condition, the registers and the stack hold, and however the pointers coincide; and it never reads or writes outside its arguments, frame and constants.", "quantifier": "all pairs of calls with the same pointers, all contents of arrays, registers, stack and numeric arguments, all ways in which pointers coincide", "why_tests_cant": "All pairs of data; memory accesses are invisible to a test.", "anchors": ["dh/sidh/internal/p434/arith_amd64.s", "dh/sidh/internal/p503/arith_amd64.s", "dh/sidh/internal/p751/arith_amd64.s", "dh/sidh/internal/p503/arith_arm64.s", "dh/sidh/internal/p751/arith_arm64.s", "dh/csidh/fp511_amd64.s", "hash/sha3/keccakf_amd64.s"]}
{"id": "C98", "title": "The amd64 build of SIDH, SIKE and mKEM gives the results of the portable build", "statement": "On amd64, on every CPU, Import, Export, GeneratePublicKey, DeriveSecret, SIKE Encapsulate and Decapsulate and the multi-recipient Encapsulate and Decapsulate return, panic and write exactly as the build with the portable routines does, for all keys a program can make, and the two builds can make the same keys.", "quantifier": "all three fields, all CPUs (BMI2/ADX flags), all keys made by any sequence of NewPublicKey, Import and GeneratePublicKey, all private keys, buffers, messages and random sources, all contents of registers, stack and unused words at each call of a routine", "why_tests_cant": "All keys and inputs; a wrong carry in one of thousands of products shows for very few of them.", "anchors": ["dh/sidh/internal/p434/arith_amd64.s", "dh/sidh/internal/p503/arith_amd64.s", "dh/sidh/internal/p751/arith_amd64.s", "dh/sidh/api.go", "dh/sidh/sike.go", "kem/mkem/sike.go"]}
{"id": "C99", "title": "The arm64 build of SIDH, SIKE and mKEM gives the results of the portable build", "statement": "On arm64 the functions of C98 give the results of the build with the portable routines.", "quantifier": "as C98", "why_tests_cant": "As C98; needs an arm64 machine.", "anchors": ["dh/sidh/internal/p503/arith_arm64.s", "dh/sidh/internal/p751/arith_arm64.s", "dh/sidh/api.go", "dh/sidh/sike.go", "kem/mkem/sike.go"]}
{"id": "C100", "title": "The library builds for every target, and every routine has one implementation in each build", "statement": "For every operating system and architecture Go knows, with and without the build tags noasm and appengine, the files the go command chooses for each package declare every name the package uses exactly once, every function declared without body has exactly one assembly implementation among them, and the same holds for all imported packages.", "quantifier": "all targets: GOOS, GOARCH, compiler, sets of build tags; all packages", "why_tests_cant": "A test runs in one build. The constraints are spread over file names and comments of many files.", "anchors": ["dh/sidh/internal/p434/arith_generic.go: +build", "dh/csidh/fp511_generic.go: +build", "drbg/internal/aes/cipher_asm.go: +build", "drbg/ctr_drbg.go: NewCtrDrbg", "hash/sha3/keccakf.go, xor.go, xor_unaligned.go: +build", "utils/cpuid_amd64.go"]}
{"id": "C101", "title": "The amd64 build of CSIDH and its encryption gives the results of the portable build", "statement": "On amd64, on every CPU (without BMI2, with BMI2, with BMI2 and ADX), GeneratePublicKey, Validate and DeriveSecret of CSIDH and Enc, Dec and multi-recipient Encrypt built on it return the same values and errors and draw the same random bytes as the build with the portable routines. So parties with different builds agree on a secret.", "quantifier": "all CPUs, all private keys, all public keys (any 8 words, on a curve or not), all random sources, buffers, messages, ciphertexts and lists of recipients, all contents of registers, stack and destinations at each call of a routine", "why_tests_cant": "All keys and inputs; a wrong carry in one of thousands of products shows for very few of them, and one machine tests one kind of CPU.", "anchors": ["dh/csidh/fp511_amd64.s", "dh/csidh/fp511_amd64.go: mulRdc", "dh/csidh/fp511_generic.go", "dh/csidh/fp511.go", "dh/csidh/csidh.go", "kem/mkem/csidh.go"]}
{"id": "C102", "title": "CSIDH calls can always finish and need few random bytes on average", "statement": "GeneratePrivateKey, GeneratePublicKey for any private key, Validate and DeriveSecret for any public key made by the package, and Enc, Dec and multi-recipient Encrypt for such keys cannot be driven into a state from which they never return: whatever random bytes they have read so far, there are further bytes with which they return (Validate and DeriveSecret with success). With uniform random bytes the mean number of 64-byte reads is at most 79 for GeneratePrivateKey, 4(n+2) for GeneratePublicKey, 3/2 for Validate and 3/2+4(n+2) for DeriveSecret and Dec, where n is the sum of the absolute values of the exponents of the private key; 3056.5 for Enc. So every pair of private keys can be used for an exchange.", "quantifier": "all private keys (any 37 bytes or fewer or more), all public keys made by chains of calls of the package, all prefixes of the random source; the mean ranges over all sources of every length", "why_tests_cant": "Termination with probability 1 and a mean over all random sources are statements about infinitely many runs; a test sees that some runs end.", "anchors": ["dh/csidh/csidh.go: GeneratePrivateKey, GeneratePublicKey, Validate, DeriveSecret, groupAction, cofactorMul", "dh/csidh/fp511.go: randFp", "kem/mkem/csidh.go: Enc, Dec, Encrypt"]}
{"id": "C103", "title": "Generated private keys are uniformly distributed", "statement": "If the random source delivers independent uniformly random bytes, GeneratePrivateKey of CSIDH returns every vector of 74 exponents in [-5,5] with the same probability, and Generate of SIDH and SIKE returns every pair of a seed and a scalar in the range of the variant with the same probability. The key says nothing about the bytes that are left in the source, and every such key can be generated.", "quantifier": "all pairs of keys, all rests of the source, sources of every length, all parameter sets and key variants, any previous content of the key object", "why_tests_cant": "A distribution over 11^74 or 2^372 keys cannot be sampled; a bias shows only in counting all sources.", "anchors": ["dh/csidh/csidh.go: GeneratePrivateKey", "dh/sidh/sidh.go: PrivateKey.Generate"]}
{"id": "C104", "title": "CSIDH: opposite exponents cancel", "statement": "If secrets are passed on as public keys from party to party, the result depends only on the sum of the exponents of each of the 74 primes over all private keys used. Positive and negative exponents cancel: a private key is undone by the one with the opposite exponents, which exists for every generated private key, and keys whose exponents sum to zero lead back to the starting curve.", "quantifier": "all lists of private keys, all random streams", "why_tests_cant": "Any number of parties, all keys, all random streams; the loop applies the two directions to different points and never sees the cancellation.", "anchors": ["dh/csidh/csidh.go: groupAction, GeneratePublicKey, DeriveSecret, PublicKey.Import, PrivateKey"]}
{"id": "C105", "title": "CSIDH: the opposite private key has the opposite public key", "statement": "When the exponents of two private keys are opposite, the numbers in their exported public keys are opposite modulo p; so anybody can compute the public key that belongs to the opposite of an unknown private key, and Validate accepts it. The same holds for keys made by several parties.", "quantifier": "all lists of private keys with opposite sums of exponents, all random streams", "why_tests_cant": "All private keys and all random streams.", "anchors": ["dh/csidh/csidh.go: groupAction, GeneratePublicKey, DeriveSecret, PublicKey.Export"]}
{"id": "C106", "title": "CSIDH: only supersingular curves are accepted", "statement": "If Validate accepts a public key, then the key is the canonical encoding of a coefficient whose curve has no singular points and is supersingular: it has exactly p+1 points over the field with p elements. DeriveSecret fails and writes nothing for every other key.", "quantifier": "all public keys, all random streams", "why_tests_cant": "The orders of random curves cannot be enumerated, and the claim rests on Hasse's bound for the number of points of every curve.", "anchors": ["dh/csidh/csidh.go: Validate, cofactorMul, DeriveSecret"]}
{"id": "C107", "title": "CSIDH: every supersingular curve is accepted", "statement": "Validate never refuses the coefficient of a supersingular curve, whoever made the key and however; it needs 3/2 blocks of random bytes on average and can always finish. Every key made by GeneratePublicKey and every secret made by DeriveSecret from such keys is a supersingular coefficient.", "quantifier": "all coefficients with p+1 points, all random streams, all chains of keys", "why_tests_cant": "All curves of the isogeny class and all random points on them.", "anchors": ["dh/csidh/csidh.go: Validate, cofactorMul, GeneratePublicKey, DeriveSecret"]}
{"id": "C108", "title": "CSIDH: key exchange on any supersingular curve", "statement": "Starting from any supersingular public key, not only from those made by this library, DeriveSecret never fails, its result is again supersingular and does not depend on the random source; two parties who apply their private keys one after the other get the same secret in either order, and in general the result depends only on the sums of the exponents. The call can always finish, within a mean number of random blocks linear in the sum of the exponents.", "quantifier": "all supersingular public keys, all lists of private keys, all random streams", "why_tests_cant": "All curves of the class, all keys, all random streams.", "anchors": ["dh/csidh/csidh.go: DeriveSecret, groupAction, PublicKey.Import, PublicKey.Export"]}
{"id": "C109", "title": "Multi-recipient KEM: exactly one ciphertext per recipient is accepted", "statement": "After Encapsulate for a list of recipients, Decapsulate on that object with the key pair of the i-th recipient returns the common secret for the i-th ciphertext and for no other: for every other string of that length, as a damaged ciphertext or that of another recipient, it returns without an error the value hashed from the secret S of the private key, the same for all of them, whatever was decapsulated before.", "quantifier": "all key pairs, random bytes, ciphertexts of the right length and sequences of decapsulations", "why_tests_cant": "All 2^128 to 2^256 wrong ciphertexts per recipient.", "anchors": ["kem/mkem/sike.go: MultiKEM.Encapsulate, MultiKEM.Decapsulate"]}
{"id": "C110", "title": "Multi-recipient KEM steps do not depend on keys, messages or validity of the ciphertext", "statement": "The sequence of field operations, conditions, table and key accesses and hash calls of Encapsulate and Decapsulate of the multi-recipient KEM depends only on the parameter set, the number of recipients and the lengths of the arguments, not on private keys, random bytes, public keys or on whether a ciphertext is accepted.", "quantifier": "all pairs of inputs with the same lengths", "why_tests_cant": "A statement on pairs of runs over all secrets.", "anchors": ["kem/mkem/sike.go: MultiKEM.Encapsulate, MultiKEM.Decapsulate", "dh/sidh/sidh.go: GeneratePublicKey, DeriveSecret"]}
{"id": "C111", "title": "Curve and field routines are right when the result overwrites an operand", "statement": "The routines of CSIDH and SIDH on field elements and points give the same result when the destination is also an operand as when all are separate, in every combination the library uses, and change nothing but their destination. So Validate, GeneratePublicKey and DeriveSecret of CSIDH, with all their updates in place, compute the functions of keys and random stream that the other properties describe. The combinations that would go wrong (destination equal to the difference in a differential addition, to the curve coefficients in a doubling, ...) are exactly named.", "quantifier": "all memories, all choices of locations (equal or not) apart from the named ones, all scalars, repetitions, keys and random streams", "why_tests_cant": "A test fixes one choice of locations and one set of values; overwriting an operand too early shows only for some of them.", "anchors": ["dh/csidh/curve.go: xAdd, xDbl, xDblAdd, xMul, xIso, montEval", "dh/csidh/csidh.go: cofactorMul, groupAction, Validate, GeneratePublicKey, DeriveSecret", "dh/sidh/internal/p434/fp2.go: add, sub, mul, sqr, inv, p34, cswap, ToMontgomery, FromMontgomery", "dh/sidh/internal/p434/curve.go: Jinvariant, RecoverCoordinateA, Pow2k, Pow3k, Fp2Batch3Inv"]}
{"id": "C112", "title": "Sum appends the digest whatever the capacity of the slice", "statement": "Sum(in) on a SHA-3 or SHAKE object returns the elements of in followed by the digest, for every slice: with memory behind its length or not, enough for the digest or not, nil or not. The caller's memory is written only if it has room for the digest behind in, and then only in these Size() bytes. The object behaves afterwards as after any other Sum.", "quantifier": "all six instances, both platforms, all earlier and later calls, all slices with all lengths, capacities and contents", "why_tests_cant": "A test uses a few slices; here length, capacity and the history of the object range over everything.", "anchors": ["hash/sha3/sha3.go: Sum, Read"]}
{"id": "C113", "title": "Export of a SIDH public key writes only within the slice", "statement": "PublicKey.Export(out) of dh/sidh writes the key at the start of out and no byte behind the length of out.", "quantifier": "all public keys of the three fields, all slices with all lengths, capacities and contents", "why_tests_cant": "Tests pass slices of exactly the right size; a shorter slice of a larger buffer is the case that goes wrong.", "anchors": ["dh/sidh/sidh.go: PublicKey.Export", "dh/sidh/common/utils.go: Fp2ToBytes"]}
{"id": "C114", "title": "A generator's output may overlap its additional data", "statement": "ReadWithAdditionalData(out, ad) gives the same output and leaves the generator in the same state when out and ad share memory, in any way, as when ad is a separate copy; no byte outside out changes.", "quantifier": "all generators reached by any calls, all memories, all positions and lengths of the two slices", "why_tests_cant": "The ways two slices can overlap, with all lengths and all states, cannot be enumerated.", "anchors": ["drbg/ctr_drbg.go: ReadWithAdditionalData"]}
{"id": "C115", "title": "Every byte of entropy given to a generator counts", "statement": "Two generators that are given different entropy (or different personalization or additional data) by Init or Reseed are in different states afterwards: no byte the caller supplies is thrown away.", "quantifier": "all generators reached by any calls, all pairs of entropy and data strings of any length", "why_tests_cant": "Tests seed with fixed strings of 48 bytes; whether some other byte of some other string is ignored needs all strings.", "anchors": ["drbg/ctr_drbg.go: Init, Reseed, update"]}
{"id": "C116", "title": "Hashing takes steps that depend on lengths only", "statement": "For SHA-3 and SHAKE objects, every condition evaluated, every index used and every copied length is the same for any two sequences of calls of the same kinds with arguments of the same lengths, whatever the bytes; an object that has absorbed a secret goes on with steps that do not depend on it.", "quantifier": "all six instances, both portable platforms, all sequences of Write, Read, Sum and Reset with all arguments", "why_tests_cant": "A test compares a few runs on one machine; that no bytes whatever change a branch or an index needs all of them.", "anchors": ["hash/sha3/sha3.go: Write, finalize_sha3, Read, Sum, Reset", "hash/sha3/xor_generic.go", "hash/sha3/xor_unaligned.go", "hash/sha3/keccakf.go"]}
{"id": "C117", "title": "The portable block cipher's steps do not depend on key and data", "statement": "With keys of the same length, the conditions evaluated, the indices used and the table entries read while a block is enciphered are the same for all keys and all blocks.", "quantifier": "all keys of the three lengths, all blocks", "why_tests_cant": "A test measures a few runs; whether some key or block changes a branch or an address needs all of them.", "anchors": ["drbg/internal/aes/generic.go: encryptBlockGo, decryptBlockGo", "drbg/internal/aes/cipher.go: Encrypt, Decrypt"]}
{"id": "C118", "title": "SM3 takes steps that depend on lengths only", "statement": "For SM3 objects, every condition evaluated, every index used and every copied length is the same for any two sequences of calls of the same kinds with arguments of the same lengths, whatever the bytes; an object that has absorbed a secret goes on with steps that do not depend on it.", "quantifier": "all sequences of Write, Sum and Reset with all arguments", "why_tests_cant": "A test compares a few runs on one machine; that no bytes whatever change a branch or an index needs all of them.", "anchors": ["hash/sm3/sm3.go: Write, Sum, Reset", "hash/sm3/compress.go: compress"]}
{"id": "C119", "title": "CSIDH hides which isogenies a private key asks for", "statement": "The degrees of the isogenies that GeneratePublicKey and DeriveSecret compute, in their order, do not depend on the private key: what an observer may see with one private key may be seen with any other.", "quantifier": "all pairs of private keys, all random sources", "why_tests_cant": "What may be seen with a key ranges over all random sources.", "anchors": ["dh/csidh/csidh.go: groupAction, GeneratePublicKey"]}
{"id": "C120", "title": "Init on a key object gives a new key", "statement": "PrivateKey.Init(field, variant) on any private key object, whatever it was used for before, gives the object NewPrivateKey(field, variant) gives, and Init on a public key object gives the object NewPublicKey gives; Init with an unknown field panics. (False in this code: a SIKE private key initialised as an SIDH key keeps its seed, so that Import then stores another scalar than the one imported, or panics; a public key keeps its points.)", "quantifier": "all previous contents and variants of the object, all fields, all variants, all strings imported afterwards", "why_tests_cant": "All histories of an object; the tests only initialise objects that were just declared, and Export after Import returns the imported string even when the scalar is wrong.", "anchors": ["dh/sidh/sidh.go: Key.Init, PrivateKey.Init, PrivateKey.Import, PrivateKey.Export, NewPrivateKey, NewPublicKey"]}
{"id": "C121", "title": "A generator's steps depend on lengths only", "statement": "What an observer of the generator sees (outcomes of conditions, lengths of copies, calls of the block cipher) depends on the calls made and on the lengths of entropy, data and requests only, not on the entropy or the secret state. (False in this code: incrementing the counter takes one more step for every byte 0xff at the end of the secret counter V; apart from that it holds.)", "quantifier": "all sequences of calls after Init, all entropy and data strings, both kinds of hardware", "why_tests_cant": "All pairs of inputs of the same lengths; a test sees results, not steps.", "anchors": ["drbg/ctr_drbg.go: inc, update, Init, Reseed, ReadWithAdditionalData, Read"]}
{"id": "C122", "title": "A call that reports failure changes nothing", "statement": "A call that returns false or an error leaves the key, the generator and the buffers it was given as they were: refused Import and Export of SIDH, SIKE and CSIDH keys, refused Init of a generator, Encapsulate and key generation with a failing random source. (False in this code for key generation: PrivateKey.Generate of SIDH and SIKE leaves the bytes it got in front of the rest of the old key; GeneratePrivateKey of CSIDH leaves the zero key, with which every derived secret is the other party's public key.)", "quantifier": "all objects, all inputs, all points at which the random source fails", "why_tests_cant": "All objects and all failure points of the random source.", "anchors": ["dh/sidh/sidh.go: PrivateKey.Generate, PrivateKey.Import, PublicKey.Import", "dh/csidh/csidh.go: GeneratePrivateKey, PrivateKey.Import, PrivateKey.Export, PublicKey.Import, PublicKey.Export", "drbg/ctr_drbg.go: Init", "dh/sidh/sike.go: Encapsulate"]}
{"id": "C123", "title": "A KEM object works after recovered panics", "statement": "Whatever calls are made on one SIKE KEM object, in any order and with any arguments (Allocate with unknown ids, keys of other fields or variants, buffers of any length, failing random sources), by a program that recovers from panics, each call gives what it gives, or panics if it panics, on a new object for the same field that has what is left of the random source. A failed Allocate changes the random source only. Encapsulate to a SIKE key of another field panics after the message has been drawn.", "quantifier": "all histories of calls on an object, all arguments, all points at which a call panics", "why_tests_cant": "All histories and crash points.", "anchors": ["dh/sidh/sike.go: Allocate, Encapsulate, Decapsulate, Reset, CiphertextSize, SharedSecretSize, generateCiphertext, decrypt"]}
{"id": "C124", "title": "Output slices over input slices", "statement": "ShakeSum128, ShakeSum256 and Decapsulate of SIKE and of the multi-recipient KEM write what belongs to the inputs as they were at the call, wherever the slices lie: the secret may be written over the ciphertext or over the slices of the private key, and nothing outside the secret is written. Encapsulate is right for slices that have no byte in common; it writes the ciphertext first, so with slices that begin at the same place the buffer to be sent begins with the secret.", "quantifier": "all memories, all positions and lengths of the slices, all keys, object states and random sources", "why_tests_cant": "All positions of slices and all contents.", "anchors": ["hash/sha3/shake.go: ShakeSum128, ShakeSum256", "dh/sidh/sike.go: Encapsulate, Decapsulate, generateCiphertext, decrypt", "kem/mkem/sike.go: MultiKEM.Decapsulate"]}
{"id": "C125", "title": "Any reader as the source of randomness", "statement": "Key generation, encapsulation and the CSIDH operations depend on an io.Reader only through the bytes it delivers: a reader that hands out its bytes in pieces of any size, with pauses, or with an error beside the last ones gives the same keys, ciphertexts, secrets, errors and unread bytes as all bytes at once. On any reader that keeps the rules of io.Reader, a call that returns without an error has taken exactly the bytes it needs and its result is that of those bytes; with an error fewer have been delivered, and Encapsulate has written nothing to the caller's slices. A key generation that succeeds after a failed one makes the key of the new bytes alone. The generator and the SHAKE objects of the library never fail as readers, and both sides agree on secrets whatever readers they draw from.", "quantifier": "all readers, as arbitrary state machines, with all sequences of short reads, pauses and errors; all keys, object states and buffers", "why_tests_cant": "A reader may split, delay or fail at every byte position, in every combination, and a test can only try some readers.", "anchors": ["dh/sidh/sidh.go: PrivateKey.Generate", "dh/sidh/sike.go: Encapsulate", "kem/mkem/sike.go: MultiKEM.Encapsulate", "dh/csidh/csidh.go: randFp, GeneratePrivateKey, GeneratePublicKey, Validate, DeriveSecret", "drbg/ctr_drbg.go: CtrDrbg.Read", "hash/sha3/sha3.go: Read"]}
{"id": "C126", "title": "A multi-recipient KEM object works after recovered panics", "statement": "Whatever calls are made on one MultiKEM object, in any order and with any arguments, by a program that recovers from panics: after the last Allocate with a known id, Encapsulate to at most the allocated number of key pairs gives the secret, common part and ciphertexts it gives on a new object with the same random source, and every recipient gets the secret, also after any calls of Decapsulate in between, whatever their arguments and whether they panicked. Encapsulate to a list with a recipient that can't be served (a wrong kind of key, a key of another field, one recipient too many) panics and leaves the new message, the new common part and new ciphertexts for the recipients before that one; these can decapsulate a secret the sender was never given, and a ciphertext kept from an earlier call gives its recipient the key of a rejection unless it is the one of the new message.", "quantifier": "all histories of calls on an object, all arguments, all points at which a call panics", "why_tests_cant": "All histories, arguments and crash points.", "anchors": ["kem/mkem/sike.go: MultiKEM.Allocate, MultiKEM.Encapsulate, MultiKEM.Decapsulate, KEM.Reset, NewPrivateKey, NewPublicKey"]}
{"id": "C127", "title": "CSIDH keys and encryption objects after recovered panics; the multi-recipient round trip", "statement": "Whatever calls of Allocate, Enc, Dec and Encrypt are made on one MultiPKE object, in any order and with any arguments, by a program that recovers from panics, once it was allocated: Enc and Dec return, panic and deliver the same as on a new object with the random bytes that are left; what Enc makes on one such object Dec undoes on any other; and whenever Encrypt returns, Dec with the stored public part and the i-th ciphertext gives the i-th recipient the message, whatever the other keys are (the first recipient only if there was neither Enc nor Dec on the object since Allocate), and it gives what it gives on a new object. With more keys than recipients Encrypt panics; whenever it panics the public part stays the old one, while ciphertexts already are those for a lost ephemeral key. A GeneratePublicKey that panics leaves the starting curve, which is accepted as a public key and gives everyone their own public key as the shared secret, so messages encrypted to it can be read by all. DeriveSecret that panics leaves the buffer alone. Import of a too long private key panics, but replaces the key.", "quantifier": "all histories of calls on an object, all arguments, all random sources and points at which a call panics", "why_tests_cant": "All histories, arguments, random sources and crash points.", "anchors": ["kem/mkem/csidh.go: PKE.Allocate, PKE.Enc, PKE.Dec, MultiPKE.Allocate, MultiPKE.Encrypt", "dh/csidh/csidh.go: GeneratePublicKey, DeriveSecret, PrivateKey.Import, randFp"]}
{"id": "C128", "title": "CSIDH: one public key used by many goroutines at once", "statement": "Any number of goroutines call Validate and DeriveSecret with a pointer to the same public key, each with its own random source; the calls share the scratch buffer inside the key, into which each writes its random bytes. For every interleaving of their accesses to that buffer: a call that returns gives what it gives alone for some random bytes (as many as its source had), so with a key made by GeneratePublicKey and DeriveSecret, Validate says true, DeriveSecret reports success, and the secret is the one a lone call derives; a key out of range or singular is refused and out left alone; no call waits for another, each ends after at most two accesses for every byte of its source; and a call that is not interrupted is not influenced by what others left in the buffer.", "quantifier": "all numbers of goroutines, keys, random sources and schedules of single-byte accesses", "why_tests_cant": "All schedules; a race shows up only now and then, if at all.", "anchors": ["dh/csidh/csidh.go: fpRngGen, randFp, Validate, DeriveSecret"]}
{"id": "C129", "title": "DRBG: one generator read by many goroutines at once", "statement": "Goroutines call Read or ReadWithAdditionalData on the same generator at the same time, each with its own buffer. Under every schedule no call panics and every buffer keeps its length. Each goroutine should hold the bytes it would hold had the calls come one after the other in some order, so that no two get the same stretch of output. This is false: for every generator in use, every length and all additional data there is a schedule under which two goroutines return with identical bytes, and a generator for which calls one after the other give different ones. It holds when no call is interrupted by another (a lock around each): the goroutines get, in whatever order they come, what the sequential generator delivers to calls in that order.", "quantifier": "all generators reached by any history, numbers of goroutines, buffers, additional data and schedules of statements", "why_tests_cant": "All schedules and histories; repeated output shows up only under certain interleavings.", "anchors": ["drbg/ctr_drbg.go: update, ReadWithAdditionalData, Read"]}
{"id": "C130", "title": "SIKE: one KEM object used by many goroutines at once", "statement": "Goroutines call Encapsulate on the same KEM object at the same time, each with its own buffers. Each should return a ciphertext and a secret that it would return had the calls come one after the other in some order. This is false, since the message drawn is kept in the object: for every object (434, 503 and 751, in any state) whose source has two messages left there is a schedule under which both calls return without error and both use the second message; the receiver of one ciphertext can then compute the secret meant for the other receiver from the two ciphertexts and its own private key; and with two different messages the outcome is that of no order of the calls. It holds when calls do not overlap (a lock around each): the goroutines get what the calls give one after the other in that order.", "quantifier": "all fields, KEM objects, random bytes, keys, buffers, numbers of goroutines and orders of non-overlapping calls", "why_tests_cant": "All schedules, keys and messages; mixed messages show up only under certain interleavings and without any error.", "anchors": ["dh/sidh/sike.go: Encapsulate, generateCiphertext", "kem/mkem/sike.go: Encapsulate"]}
{"id": "C131", "title": "SIKE: ciphertexts tested by goroutines that share a KEM object", "statement": "Goroutines call Decapsulate on the same KEM object at the same time. Each should get the secret of the specification for its ciphertext and key; in particular a ciphertext that re-encryption does not reproduce gives the hash of S and the ciphertext. This fails, since the scalar of the re-encryption is kept in the object: for every object (434, 503 and 751, in any state), all keys and all ciphertexts of the right length there is a schedule under which both calls return without error and the first ciphertext is tested with the scalar made from the second. So beside an accepted ciphertext any other with the same first part passes the test, giving the hash of what it decrypts to and not of S; and beside an accepted ciphertext with another first part a good one gives the hash of S. It holds when calls do not overlap (a lock around each): every goroutine gets the secret of the specification, in whatever order they come.", "quantifier": "all fields, KEM objects, keys, ciphertexts, buffers, numbers of goroutines and orders of non-overlapping calls", "why_tests_cant": "All schedules, keys and ciphertexts; a forged ciphertext passes only under certain interleavings and without any error.", "anchors": ["dh/sidh/sike.go: Decapsulate, decrypt", "kem/mkem/sike.go: Decapsulate"]}
