# Formal model of henrydcase/nobs in Lean 4

## Layout

* `properties.jsonl` – the English properties C01…
* `lean/Verif/Spec/` – small specifications written from the standards (FIPS 202, SP 800-185, GB/T 32905, FIPS 197,
  SP 800-90A, the SIKE submission) and from mathematics (integers, prime fields, Montgomery curves over Mathlib's
  `WeierstrassCurve`). They do not import the model; `Spec/Asm.lean` and `Spec/AsmSteps.lean` are the exception, since "a call returns with these arrays"
  needs the machine.
* `lean/Verif/Model/` – the model of the Go code and of the assembly, function by function; each definition cites the file and
  lines in `/repo`.
* `lean/Verif/Lemmas/` – helper lemmas.
* `lean/Verif/Props/` – the property theorems, named after the property, each beside `example`s showing that its hypotheses
  are met by a concrete non-trivial case.
* `lean/Verif/Audit.lean` – fails to build if a theorem of the manifest depends on any other axiom than the three named below.
* `gen/` – scripts that print modules of the model from the text of `/repo` (tables, unrolled code, assembly), certificates for
  the assembly proofs, and the manifest. The build does not run them.
* `seeded/LOG.jsonl` – mutation experiments: bugs put in a scratch copy of the model and which theorems then failed.
* `MANIFEST.json` – property → theorems.

A theorem whose name ends in `_partial` proves part of a property; the rest is either false of the code – then a theorem ending in
`_false` proves the negation with a concrete witness – or missing, and said to be so in the manifest.

## How Go is modelled

* `byte`, `uint32`, `uint64` are `BitVec 8/32/64`; arithmetic wraps as in Go. `int` indices are `Nat` where the code keeps
  them non-negative and small; where it does not, the comment says what happens.
* Slices are lists, with capacity equal to length. A function that writes through a slice or pointer returns the new contents.
  A destination equal to a source is modelled explicitly where the code calls functions that way: `Model/SidhAlias`,
  `Model/CsidhAlias` (memory maps buffers to arrays, words are read and written in the order of the code) and the
  `Alias` cases of the assembly theorems.  `Model/CsidhMem` and `Model/SidhMem` do the same one level up, for points and
  elements of the quadratic field (C111).
* Objects are structures; methods are functions from the old object to the result and the new object.
* A panic (index out of range, explicit `panic`) is a value (`none` / `Res.panic`), never a default value. `error` results are values.
* A random source (`io.Reader`) is the list of bytes it will deliver; after them it fails. All theorems hold for every such list. C125 removes this simplification: there the source is any reader.
* Loops that may run for ever (rejection sampling, `groupAction`, `Validate`) consume random bytes in every round; the model
  recurses on the bytes left, so it has no fuel, and "returns" means that the source delivered enough bytes.
* `math/bits.Add64/Sub64/Mul64`, `encoding/binary`, `subtle.ConstantTimeCompare`, `io.ReadFull`, `append`/`copy` are modelled by
  their documented behaviour.
* Straight-line unrolled code and tables are printed from the text of the Go file by a script, so that transcription errors
  are excluded (`Model/KeccakGen`, `SM3Gen`, `AESTab`, `SidhParams`, `AsmP434/503/751`, `AsmArm503/751`, `AsmCsidh`, `AsmKeccak`).
* The code of curve.go and core.go is written over a record of field operations. The model of the Go code is its instance with
  the word-array operations; the same text over a field is used in the proofs, and a simulation lemma connects the two.

## How assembly is modelled

`Model/Asm.lean` is a machine with 64-bit registers, the carry and overflow flags, and memory made of blocks of words. Its
instructions are three-address operations (add with carry in and out through CF or OF, multiply, shift, and, or, xor, rotate, move,
conditional select); abbreviations with the names of the Go assembler (`ADCXQ`, `MULXQ`, …) map to them. Instructions that would
read a flag left undefined, do arithmetic on a pointer, or touch memory outside the given arrays have no result, so "returns" in
a theorem also says that this never happens. An XMM register is two words (`Model/AsmCsidh`).

* The programs are printed by `gen/asmgen*.py` from the `.s` files: preprocessor macros are expanded, and the jumps on CPU flags
  are followed, which gives one straight-line program for each kind of CPU (`Cpu`: no BMI2, BMI2, BMI2 and ADX). The
  parser `gen/asmparse.py` is part of the trusted reading of `/repo`, and each printed block cites its line there.
* Calls: arguments on the stack, arbitrary contents of all other registers, flags undefined, arbitrary stack frame. BP is treated
  as the assembler treats it: saved in the word above a non-empty frame.
* Arithmetic routines are proved by reflection. `Lemmas/AsmSym` executes a program on polynomials over the input words,
  introducing a variable and a defining equation for each carry and each high/low product word; `AsmSound` proves that every
  concrete run satisfies the equations; `AsmFam*` define checkers that combine the equations with coefficients found by
  `gen/asmcert.py` into the wanted identity, and prove that a check that succeeds implies the statement for all inputs.
  The checks are evaluated by the kernel (`decide +kernel`) on the program text only – no input value occurs in them.
* Bitwise routines (Keccak, swaps) use a second evaluator (`Lemmas/AsmBit`) over XOR-sums of masked products of rotated words.
* drbg/internal/aes/asm_amd64.s has its own, earlier model with 128-bit registers (`Model/AESAsm`), and so has asm_arm64.s of that
  directory (`Model/AESArm`).
* arm64 (`Model/AsmArm64`): the 32 registers are machine registers 17 and up, except that R29, the frame pointer, takes the place of BP;
  loads and stores of pairs are two moves; after a subtraction the carry flag is the complement of the borrow, as on the machine;
  `CMP $0` sets the flag that `CSEL` tests. p434 has no arm64 assembly; its arith_decl.go and arith_generic.go
  have tags `amd64,!noasm` and `noasm,arm64 !amd64`, so with the tag noasm on amd64 that package has neither and does not compile.

## Trusted base

Lean's kernel; the axioms `propext`, `Classical.choice`, `Quot.sound`, and no others (`Verif/Audit.lean`); Mathlib's definitions
where statements use them (`ZMod`, `WeierstrassCurve.Affine.Point`, `WeierstrassCurve.j`); the correspondence between the text in
`/repo` and the model (by reading, with line citations, and by the scripts for printed modules); the specification files.
No `sorry`, no `native_decide`/`bv_decide`, no added axioms. `decide +kernel` evaluates closed decidable statements in the kernel:
finite tables, constants, certificate checks, and concrete runs used as witnesses and examples.

## What is modelled

| directory | files | not modelled |
|---|---|---|
| hash/sha3 | sha3.go, shake.go, keccakf.go, xor*.go, keccakf_amd64.s | |
| hash/sm3 | sm3.go, compress.go | |
| drbg | ctr_drbg.go | |
| drbg/internal/aes | cipher.go, generic.go, const.go, cipher_asm.go, asm_amd64.s, asm_arm64.s, tools.go | `expandKey` (cipher_asm.go:71-100, used by a benchmark only) |
| utils | all | |
| dh/sidh | sidh.go, sike.go, common/*, internal/p*/{params,fp2,curve,core,arith_generic,arith_decl}.go, arith_amd64.s, arith_arm64.s | `templates/gen.go`; the files it generates are modelled instead |
| dh/csidh | all, with fp511_amd64.go and fp511_amd64.s | |
| kem/mkem | sike.go, csidh.go | cmd/bench.go |

Outside the model everywhere: timing, apart from the steps recorded for C95–C97, C110 and C116–C119, the garbage collector and scheduler (no code in the repository
starts a goroutine), tests and benchmarks. A slice is the list of its elements, apart from `Model/Slices.lean` (C112–C114):
a function that does not panic in the model has no slice expression with a bound above the length, so the memory behind the
length plays no role for it; `Sum` and SIDH's `PublicKey.Export` are the two with such an expression.

## Plan per property

| property | model | proof |
|---|---|---|
| C01, C11, C13 | sponge object (buffer, state words, rate, suffix, phase) with Write/Read/Reset/Sum | simulation invariant between the object and (absorbed bytes, squeezed count); induction over calls |
| C02 | four-round unrolled body generated from keccakf.go | per-round equality with theta-rho-pi-chi-iota by rewriting over arbitrary lanes |
| C03–C06, C10 | same object | case analysis on phase; negation witness for "Sum does not change the object" (C05) |
| C07 | both byte/word routines over lists | list induction |
| C08, C09, C12 | leftEncode/bytepad over lists | spec of SP 800-185; negation witness for aligned prefixes (C08); injectivity by prefix-code argument |
| C14–C19 | SM3 object, unrolled rounds | simulation invariant; compress = spec by round-role invariant; negation witnesses for C17, C18 |
| C20–C22 | T-table AES with key schedule | finite tables by kernel evaluation, lifted to all states by linearity of the round; inverse rounds |
| C23 | AES-NI instruction model | key schedule and rounds against the same specification; negation witness for 16-byte keys |
| C24–C30 | DRBG over AES | invariants over call sequences; negation witnesses for C26–C29 |
| C31 | register-level model of init | bit lemmas; negation witness for the AES flag |
| C32–C37 | byte/limb conversion, keys, registry | list induction, numeric lemmas; negation witnesses for C36, C37 |
| C38–C43, C45 | limb loops for any number of words | induction over words; Montgomery reduction lemma; ring identities in F_p[i] |
| C44 | the moduli | Pocklington/Lucas certificates checked by the kernel |
| C46–C50 | curve.go and core.go | algebra over any field; Mathlib's group law; see *Isogenies* |
| C51, C52 | sidh.go | see *Isogenies*; base points by kernel evaluation |
| C53–C57 | sike.go | refinement of Spec/Sike, correctness from C51; `c55_oversize_partial` for the clause that is false |
| C58–C60 | mkem/sike.go | refinement of Spec/Mkem; concrete counterexample for C59 |
| C61–C63 | mkem/csidh.go | round trip from C75; concrete counterexamples for C62, C63 |
| C64, C65 | fp511*.go, consts.go | as C38–C45 |
| C66 | ladder of curve.go | invariant of the ladder against the group law, with the exceptional cases (0,0) and k = 0 apart |
| C67, C68, C70–C72 | csidh.go keys, loops with arbitrary random source | induction over the bytes of the source |
| C69, C73 | Validate | order argument in the group of points over an extension; see *Validation* |
| C74 | zero key | run of the action with an empty exponent vector |
| C75–C77 | group action | see *Isogenies* |
| C78–C83 | SIDH assembly | symbolic execution with certificates; witnesses for C80, C82 |
| C84–C86 | CSIDH assembly, swaps, Keccak assembly | the same; bitwise evaluator |
| C87–C92 | SIDH assembly for arm64 | the same; exact result of mulP503 and negation witnesses for C89, C91 |
| C93 | memory of bytes with 64-bit addresses, slices that may overlap | interval arithmetic on addresses; the block theorems of C20–C23 |
| C94 | ARMv8 AES instructions, key loops, block routines | invariant of the three key loops; a round of one architecture is a round of the other with the key added at the other end |
| C95, C96 | the Go code of SIDH and SIKE once more, writing down its observable steps | see *Observable steps* |
| C97 | `Model/AsmSteps.lean`: the memory accesses of a straight-line program | an abstract run that knows which words are pointers, sound for all states; the kernel runs it on each routine |
| C100 | `Model/GoBuild.lean` (go/build), `Model/GoBuildTable.lean` (constraints and names of the files of /repo) | a package depends on few tags; the kernel evaluates the table for all their truth values |
| C98, C99 | `Model/SidhBuild.lean`: the Go code over the routines of a build, which are runs of the modelled assembly | each routine agrees with the portable one on reduced arguments (C78–C92); the curve code respects relations; the field values of all keys are reduced |
| C101 | `Model/CsidhBuild.lean`: fp511.go, csidh.go and mkem/csidh.go over the routines of a build, runs of the modelled assembly | each routine agrees with the portable one on 8 words (C84, C85); the curve code respects the relation "the same 8 words"; induction over the loops and the random source |
| C102 | the model of C74–C77; `Spec/Expect.lean`: the fraction of the sources of k blocks on which a call has not returned, and its sum over k | count the x-coordinates of each sign and those killed by a cofactor; each round does something with probability at least 1/4; a potential bounds the sum |
| C103 | the models of C37 and C67; `Spec/Uniform.lean`: as many sources of each length lead to one outcome as to another | an involution on the sources that exchanges the two keys: a swap of the accepted bytes (CSIDH), a mask added to the bytes (SIDH) |
| C104 | the model of C75 and C77 | the quotient of a curve by all points of order ℓ is the curve: numerator and denominator of the x-coordinate of ℓP as polynomials (`Lemmas/XCancel.lean`), product over the ℓ² preimages, points of large order to compare the two curves; then cancellation of pairs in the list of isogenies |
| C105 | the model of C75 and C77 | the opposite endomorphism and the opposite x-coordinate on the same group exchange the two directions (`Lemmas/CsidhTwist.lean`) |
| C106 | Validate; `Spec/Supersingular.lean` counts the pairs (x, y) on the curve | C69 gives a point of large order; Hasse's bound for the number of points (Manin's elementary proof, `Lemmas/HassePoly.lean`, `HasseStep.lean`, `HasseBase.lean`), the quadratic twist (`HasseTwist.lean`) and the place of the point on the curve or its twist (`HasseFrob.lean`) then leave only p + 1; partial for the reason of C69 |
| C107, C108 | Validate, DeriveSecret | the number of points decides the action of Frobenius on every point over the algebraic closure, which is what the invariant of C75 and C102 needs; so these start at any supersingular curve (`Lemmas/CsidhSuper.lean`) |
| C109 | the model of C58 | key agreement (C51) shows that re-encryption of a message with the common part c0 gives the same pad as decryption, so the message must be the one stored in the object |
| C110 | `Model/MkemSteps.lean`, the functions of the multi-recipient KEM writing down their steps | relational, as C96 |
| C111 | `Model/CsidhMem.lean`, `Model/SidhMem.lean`: curve.go, fp2.go and the functions of csidh.go on a memory of points, coordinates read and written in the order of the code, locations equal or not | each routine = its value-level function at the destination and nothing changed elsewhere, by cases on equality of locations, loops by induction; API functions by simulation; counterexamples for the calls that are excluded |
| C112 | `Model/Slices.lean`: `Sum` on a slice with any memory behind its length, and on nil | result, memory afterwards and all later results, after any history, from the simulation with the specification object |
| C113 | `Model/Slices.lean`: `PublicKey.Export` with slice bounds checked against the capacity, memory kept at a panic | exact memory for every slice by induction over the parts; `c113_within_partial` for slices long enough; the claim for shorter ones refuted for every key |
| C114 | `Model/Slices.lean`: `ReadWithAdditionalData` with `out` and `ad` two windows of one memory | equal to the call on copies, by induction over the blocks written |
| C115 | the CTR_DRBG model and the standard's state `view` | the update step is injective in its 48 bytes; what is kept of a string is exactly its first 48 bytes, padded with zeros. False for longer strings and trailing zeros: `c115_full_false` |
| C116 | `Model/Sha3Steps.lean`: hash/sha3 once more, recording conditions, indices and lengths | values as in Model/Sha3.lean; two runs side by side with objects that differ only in contents |
| C117 | `Model/AESSteps.lean`: one block of the portable AES, recording conditions, indices into the schedule and into the tables | false of the code (`c117_full_false`): the table indices for one known block determine the whole key (`c117_reveals_key`). Proved part: nothing but table indices differs |
| C118 | `Model/SM3Steps.lean`: hash/sm3 once more, recording conditions, indices and lengths | as C116 |
| C119 | the record of isogenies kept by `groupActionLog` | false of the code (`c119_full_false`; the package says it is not constant time): how often a degree is seen is the exponent up to sign. Existence of runs from C102 |
| C120 | `PrivateKey.Init` and the promoted `Key.Init` of public keys, on an object with any content | Unfolding; what holds (`_partial`): equal to the `New…` functions on objects without SIKE seed or points. False otherwise: for every field and SIDH variant an object that was a SIKE key gets another scalar than the imported one (and p751 → p434 panics); public keys keep their points. For public keys only `Init` for the same field is modelled. |
| C121 | ctr_drbg.go once more with a list of observed steps (`Model/DRBGSteps.lean`); calls of the block cipher are single steps | Same results as the unrecorded model; induction over the calls gives the steps outside `inc` as a function of lengths (`_partial`); the number of steps of `inc` is 2·(trailing 0xff bytes of V)+2, so the full claim is false: entropy is exhibited for which V is all 0 or all 0xff. |
| C122 | the models of C28, C34, C35, C37, C55, C67, C68 | Unfolding of the failing branch of each function (`_partial`); for SIDH and SIKE key generation the exact content left by a source that fails anywhere; CSIDH leaves the zero key, C74 says what it derives. False for key generation. |
| C123 | `Model/SikePanic.lean`: sike.go as functions from the object to the object afterwards and a result or panic, so that the object after a panic is known | Relational proof (`Lemmas/SikePanic.lean`): on two objects for one field with the same source, whatever else is in them, each method panics on both or gives the same on both; induction on the history against new objects (`c123_recovered`); agreement with the model of C53–C57 (`c123_same`); a panic in the middle (`c123_foreign`). |
| C124 | `Model/SikeOverlap.lean`: the functions with input and output slices on one memory, each read and write where the code has it | Step by step comparison with the functions on separate buffers (`Lemmas/SikeOverlap.lean`); the spec is a relation `Put` between memories. `c124_encapsulate_overlap` is the observation that Encapsulate needs slices that are apart. |
| C125 | `Model/Reader.lean`: the functions that draw random bytes once more, on a reader that is any state machine, with `io.ReadFull` as the standard library has it (loops by `partial_fixpoint`: `none` is a panic or a call that never returns); `Spec/Source.lean`: what a reader may do | Induction on the calls of Read, by partial correctness for readers of which nothing is known and by the number of bytes left for readers with a finite supply (`Lemmas/Reader*.lean`); the results are compared with the functions on lists, so that the other properties carry over (`c125_csidh_agree`, `c125_sike_agree`). |
| C126 | `Model/MkemPanic.lean`: `MultiKEM` as functions from the object to the object afterwards and a result or panic | Every call keeps the lengths and parameters of the object, panicking or not (`Lemmas/MkemPanic.lean`, rules for each step in the style of a program logic); induction on the history (`c126_usable`, `c126_as_new`); agreement with the model of C58–C60 and C109 (`c126_same`); the object after a call abandoned at one recipient, computed step by step (`c126_abandoned`, `c126_abandoned_recipient`). |
| C127 | `Model/CsidhPanic.lean`: `PKE`, `MultiPKE` and the key functions of CSIDH as functions to the objects afterwards and a result or panic | Agreement with the models of C61–C63, C68 and C75–C77 call by call (`c127_same`); invariant of the hash object, induction on the history (`c127_pke`, `c127_encrypt`); each pass of the loop of `Encrypt` on its own gives the multi-recipient round trip from C75 (`c127_multi`); the starting curve as a key made from the zero private key, so that C77 applies (`c127_public`, `c127_open`). |
| C128 | `Model/CsidhShared.lean`: calls as sequences of reads and writes of single bytes of the buffer in the shared key, a scheduler that picks the next goroutine | What a call reads is arbitrary, so it ends as the sequential model does for the bytes it read (`c128_alone`, by induction on the loop); with C76 the result is independent of these (`c128_secret`, `c128_accepts`); number of steps (`c128_ends`); agreement with the sequential model without interruption (`c128_undisturbed`). The program has a data race in the sense of Go's memory model; the model takes byte accesses to be atomic and in one order. The proofs of `c128_alone`, `c128_secret`, `c128_accepts` and `c128_refuses` do not use which value a read gives. |
| C129 | `Model/DRBGShared.lean`: a call as the list of its statements over the shared object and its own buffer, a scheduler that picks the next goroutine | All statements in a row are the call of the sequential model (`c129_same`); array sizes and a keyed cipher are kept by every statement, so no schedule panics (`c129_no_panic`). **The code violates the property**: a statement changes the object or the buffer, never both, so two calls in lockstep keep equal buffers (`c129_repeats`, for every generator in use and every length); with two different sequential outputs this contradicts any sequential order (`c129_false`). `c129_serial_partial`: uninterrupted calls in any order agree with the sequential generator; what is missing is the interleaved schedules. Simplification: a statement is one step (the loops in `inc`, `SetKey`, the xor and the copies are not split), which leaves fewer schedules than the program has. This does not weaken the negation, but `c129_no_panic` speaks only of schedules that switch between statements. |
| C130 | `Model/SikeShared.lean`: `Encapsulate` as two steps (up to the message being drawn into the object; the rest), a scheduler that picks the next goroutine | Both steps in a row are the call of `Model/Sike.lean` (`c130_same`). **The code violates the property**: with the schedule 0, 1, 0, 1 both calls encapsulate the second message (`c130_mixed`), so that one receiver can compute the other's secret (`c130_leak`), and no order of the calls gives this when the messages differ, because decryption recovers the message (`c130_false`). `c130_serial_partial`: calls that do not overlap, in any order, agree with the sequential model; missing are overlapping calls. Simplification: the program can be interrupted at more places; this does not weaken the negation. `Decapsulate` by several goroutines is C131. |
| C131 | `Model/SikeSharedDec.lean`: `Decapsulate` as two steps (up to the import of the scalar into the object; from its use on), a scheduler that picks the next goroutine | Both steps in a row are the call of `Model/Sike.lean` (`c131_same`). **The code violates the property**: with the schedule 0, 1, 0, 1 the first ciphertext is tested with the scalar of the second (`c131_check`), so that forged ciphertexts pass (`c131_bypass`) and good ones are turned away (`c131_refused`). For all keys the theorems say what is hashed; that the secrets then differ is proved for the first test vector of SIKEp434 and a forged copy of its ciphertext, calculated in the kernel (`Props/SikeSharedRun.lean`, `c131_false`). `c131_serial_partial`: calls that do not overlap, in any order, give the secrets of the specification; missing are overlapping calls. Simplification: the program can be interrupted at more places; this does not weaken the negative results. |

### Isogenies

No theory of isogenies or of quotient curves is in Mathlib, so images of curves are described without it. `Spec/Mont.lean` defines
`XRep A N T g`: a function g on an abelian group Γ (the points of the starting curve over a large enough field) that behaves on
Γ/N like the x-coordinate on the curve with coefficient A: even, constant on classes, following the doubling and differential
addition laws. The 2-, 3-, 4- and odd-degree formulas of the code are proved to turn an `XRep` with subgroup N into one with N + ⟨K⟩
(`c48_*`, `Lemmas/XOddIso`). Two `XRep`s with the same subgroup have the same coefficient, up to sign where the 2-torsion is not
fixed; hence equal j-invariants. Key agreement then reduces to equality of subgroups of Γ.

* SIDH: the subgroups are ⟨P_A+[a]Q_A⟩ + ⟨P_B+[b]Q_B⟩ from both sides. Orders and independence of the base points are evaluated by
  the kernel on the tables of params.go.
* CSIDH: N is the sum over the primes ℓ of the kernels of powers of ℓ on which Frobenius acts as 1 or −1; the subgroup depends only on
  the exponent vector, so neither the order of the steps nor the random points matter (C75–C77). No class-group theory is used
  and no commutativity is assumed.

### Validation (C69)

`Validate` counts a prime ℓ as a factor of the order when [ℓ]Q is at infinity, with Q = [(p+1)/ℓ]S. If [p+1]S = (0,0), the ladder of the code
is not exact at the intermediate points and the result Z = 0 does not mean that the point is neutral. `c69_round` describes a round
with [p+1]S ≠ (0,0), `c69_round_origin` one with [p+1]S = (0,0); together they give the outcome of every round. In the second case the order of [4]S is 2d
with d a product of some of the primes, and a prime is counted by mistake when it does not divide d but the part of the list next to
it in the recursion has a prime that does. `Spec/CsidhCredit.lean` defines the product of these primes (`credit`) from the tree of the recursion alone, and the key is accepted
exactly when it exceeds 4√p. That is possible with d a product of 32 primes (the example beside the theorem), and d must exceed 2^63 (`c69_accept_partial`
has 2^64 for the order of [4]S). So C69 stays partial. A key that is wrongly accepted has a trace that is divisible by such a d, in theory such
curves exist, but one is not within reach of a search, and no witness has been produced. `Props.CsidhSuper.c106_accept_partial` says the same with the number of points: an
accepted curve is supersingular, or its number of points has a divisor d in common with p + 1, 2^64 < d ≤ 2√p, with `credit` above 4√p; `c106_refuse` is the consequence
that an ordinary curve whose number of points has no such divisor above 2^64 is always refused.

### A run of SIKE in the kernel (C55)

The curve code is written over a record of field operations and respects every relation between two instances. `Lemmas/SidhRun.lean`
instantiates it with pairs of numbers modulo p, which the kernel evaluates in seconds. `Props/SikeRun.lean` runs the first test
vector of dh/sidh/testdata (SIKEp434) this way: key generation, `Encapsulate` and `Decapsulate` of the model give the public key, the
ciphertext and the secret of the file. The literals are printed by gen/kat.py.

### Observable steps (C95, C96, C110, C116–C119, C121)

`Model/SidhSteps.lean` and `Model/SikeSteps.lean` repeat the Go code of fp2.go, curve.go, core.go, api.go and sike.go in a monad that
writes down: calls of field routines, outcomes of conditions, indices into the private key, the strategy, the stack of points and the
tables of `p34`, lengths of copies and comparisons, requests to SHAKE256 and to the random source. `Lemmas/SidhSteps.lean` proves that
the value is that of the model without steps; `Lemmas/SidhStepsRel.lean` and `Lemmas/SikeSteps.lean` relate two runs. Not recorded: what
happens inside a field routine (assembly without data-dependent branches and, by C97, without data-dependent addresses), inside Keccak (C116
records that on its own: its steps depend on lengths, which are what is recorded here), and `subtle.ConstantTimeCompare`, which is a step of its length. Time taken by a machine instruction,
caches and the Go compiler are outside the model.

### Builds (C98, C99, C101)

The model of sidh.go, sike.go and mkem uses the portable routines. `Model/SidhBuild.lean` has the same functions with a record of routines
(`Arith`), and two instances made of the assembly models: each call runs the routine on a machine whose other registers, stack and unused
words are any function of the operands (so they may differ from call to call). Here
each call has a destination of its own; calls in which pointers coincide give the same result by C78, C79, C87 and C88. p434 has no arm64 assembly and uses the portable routines
there. For p503 on arm64 the routines are followed on numbers, with the lost carry (`Lemmas/SidhArm503.lean`), and the kernel evaluates one
derivation (`Lemmas/SidhArm503Run.lean`), which gives `c99_false`.
C101 does the same for CSIDH (`Model/CsidhBuild.lean`, record `Prim`): the CPU decides whether mul512 uses MULX and whether mulRdc calls mulBmiAsm. Public keys are
any 8 words; the swap is called with the choices 0 and 1 only. Which files are in which build is C100.

### Choice of files (C100)

`Model/GoBuild.lean` models go/build: the leading comment block, the `+build` lines, their tokens and names, the architecture in a file name.
`Model/GoBuildTable.lean` is generated by gen/gobuild.py from the text of /repo: the lines before the package clause, the names each file
declares and uses. A target is any GOOS, GOARCH, compiler and list of tags. `Builds` says that no name is missing or declared twice; it does
not type-check the files. Tests (`_test.go`) and packages outside the module are not included. The names are extracted by a script with regular
expressions, which is part of what is trusted; it counts every occurrence of an identifier as a use.

## Where the code does not do what a user expects

Each is proved in Lean with a concrete witness (name in parentheses).

* SHA-3 `Sum` finishes the object (`c05_full_false`); cSHAKE adds no padding block where the prefix fills whole blocks (`c08_full128_false`).
* SM3 `Write` returns a wrong count (`c17_full_false`), `Sum(b)` hashes b instead of appending to it (`c18_full_false`).
* AES-NI object with 16-byte keys runs 14 rounds (`c23_full_false`).
* DRBG: last partial block repeats key stream (`c26_full_false`, `c27_tail_repeats`), too little entropy accepted (`c28_full_false`),
  Init keeps Key and V (`c29_full_false`).
* CPUID: the AES flag is read from the wrong register (`c31_full_false`).
* SIDH `PublicKey.Import` ORs into used objects (`c36_false`; CSIDH: `c68_reused`); keys for the 2-torsion over p434 always end in a zero byte
  (`c37_p434A_false`); GeneratePrivateKey drops the error (`c37_wrapper_false`).
* SIKE `Encapsulate` hashes the whole of an oversized buffer (`c55_oversize_partial`, `c55_oversize_false`).
* mKEM decapsulation works only on the sender's object (`c59_false`); CSIDH PKE encrypts under a constant mask for a refused key
  (`c62_false`, `c62_multi_false`), and objects remember hash state (`c63_false`).
* CSIDH private keys longer than 37 bytes panic on Import (`c67_long_panics`).
* Builds: SIDH cannot be built on amd64 with noasm (p434 has no routines there), CSIDH not on architectures other than amd64 and arm64 without
  noasm, and the random generator and mKEM only on amd64 and arm64 without noasm: `+build amd64, !noasm` in cipher_asm.go means `!noasm`,
  and ctr_drbg.go always refers to `AESAsm` (`c100_exact`, `c100_false`).
* amd64: products of p503 and p751 are wrong for operands with the top bit set (`c80_false`; no field element has it); `mulP434` on ADX and
  `rdcP751` on BMI2 return with another BP (`c82_false`); `cswap512` differs from the portable code for choices other than 0 and 1,
  which its comment calls undefined (`c85_other`).
* arm64: `mulP503` loses a carry for some reduced field elements, and the square of such an element is wrong in the field too
  (`c89_false`, `c89_false_field`). So `DeriveSecret` with p503 returns another secret than the portable build for a public key that both
  builds import alike (`c99_false`). The products and Montgomery reductions overwrite the frame pointer R29 (`c91_false`). The swaps
  differ from the portable ones for choices other than 0 and 1 (`c92_other`).
* Export writes behind the length of a slice that is too short but has spare capacity (`c113_full_false`), and panics after having
  written (`c113_panic_writes`).
* DRBG: entropy and personalization behind the 48th byte are ignored, missing bytes count as zeros (`c115_full_false`). The number of
  steps of the counter's increment depends on the secret counter (`c121_full_false`).
* The portable AES looks up tables at indices that give away the key (`c117_full_false`). CSIDH computes as many isogenies of each
  degree as the private exponent says (`c119_full_false`).
* `Init` of a used SIDH key keeps the SIKE seed or the points (`c120_private_false`, `c120_public_false`).
* Key generation that fails leaves a partly overwritten key (SIDH) or the zero key (CSIDH), not the old one (`c122_sidh_false`, `c122_csidh_false`).
* SIKE `Encapsulate` with overlapping buffers (`c124_encapsulate_overlap`).
* Objects shared by goroutines without a lock: a generator can give both the same bytes (`c129_false`), a KEM object can use one message for
  two receivers (`c130_leak`, `c130_false`), and can test a ciphertext with the scalar of another (`c131_false`). The package does
  not say that these objects may be shared.
