import Verif.Props.Sha3
import Verif.Props.SM3
import Verif.Props.AES
import Verif.Props.AESMem
import Verif.Props.DRBG
import Verif.Props.Utils
import Verif.Props.SidhArith
import Verif.Props.SidhFp2
import Verif.Props.SidhKeys
import Verif.Props.SidhCurve
import Verif.Props.Sike
import Verif.Props.Mkem
import Verif.Props.CsidhField
import Verif.Props.CsidhKeys
import Verif.Props.CsidhCurve
import Verif.Props.CsidhValidate
import Verif.Props.CsidhZero
import Verif.Props.CsidhPke
import Verif.Props.CsidhAgree
import Verif.Model.Asm
import Verif.Model.AsmP434
import Verif.Model.AsmP503
import Verif.Model.AsmP751
import Verif.Model.AsmAmd64
import Verif.Model.AsmCsidh
import Verif.Model.AsmKeccak
import Verif.Model.CsidhAmd64
import Verif.Spec.Asm
import Verif.Lemmas.AsmPoly
import Verif.Lemmas.AsmSym
import Verif.Lemmas.AsmSound
import Verif.Lemmas.AsmCall
import Verif.Lemmas.AsmFam
import Verif.Lemmas.AsmCert434Add
import Verif.Lemmas.AsmCert434Mul
import Verif.Lemmas.AsmCert503Add
import Verif.Lemmas.AsmCert503Mul
import Verif.Lemmas.AsmCert751Add
import Verif.Lemmas.AsmCert751Mul
import Verif.Lemmas.AsmAmd64
import Verif.Props.AsmArith
import Verif.Lemmas.AsmCsidh
import Verif.Props.AsmCsidh
import Verif.Model.AsmArm64
import Verif.Model.AsmArm503
import Verif.Model.AsmArm751
import Verif.Model.AsmArm
import Verif.Lemmas.AsmCertArm503Add
import Verif.Lemmas.AsmCertArm503Mul
import Verif.Lemmas.AsmCertArm751Add
import Verif.Lemmas.AsmCertArm751Mul
import Verif.Lemmas.AsmFamArm
import Verif.Lemmas.AsmArm64
import Verif.Lemmas.AsmSwapArm
import Verif.Props.AsmArm
import Verif.Lemmas.SikeKat
import Verif.Props.SikeRun
import Verif.Model.SidhSteps
import Verif.Model.SikeSteps
import Verif.Lemmas.SidhSteps
import Verif.Lemmas.SidhStepsRel
import Verif.Lemmas.SikeSteps
import Verif.Props.SidhSteps
import Verif.Model.AsmSteps
import Verif.Spec.AsmSteps
import Verif.Lemmas.AsmSteps
import Verif.Lemmas.AsmStepsStart
import Verif.Props.AsmSteps
import Verif.Model.SidhBuild
import Verif.Lemmas.SidhBuild
import Verif.Lemmas.SidhBuildApi
import Verif.Lemmas.SidhArm503
import Verif.Lemmas.SidhArm503Run
import Verif.Props.SidhBuild
import Verif.Model.CsidhBuild
import Verif.Lemmas.CsidhBuild
import Verif.Props.CsidhBuild
import Verif.Model.GoBuild
import Verif.Model.GoBuildTable
import Verif.Lemmas.GoBuild
import Verif.Props.GoBuild
import Verif.Audit
import Verif.Spec.Expect
import Verif.Lemmas.CsidhCount
import Verif.Lemmas.BlockExpect
import Verif.Lemmas.CsidhLive
import Verif.Lemmas.CsidhBlocks
import Verif.Lemmas.BlockSeq
import Verif.Lemmas.CsidhReader
import Verif.Props.CsidhLive
import Verif.Lemmas.XCancel
import Verif.Lemmas.CsidhCancel
import Verif.Lemmas.CsidhTwist
import Verif.Props.CsidhCancel
import Verif.Spec.Uniform
import Verif.Lemmas.Uniform
import Verif.Props.Uniform
import Verif.Lemmas.HassePoly
import Verif.Lemmas.HasseStep
import Verif.Lemmas.HasseBase
import Verif.Lemmas.HasseTwist
import Verif.Lemmas.HasseFrob
import Verif.Lemmas.CsidhSuper
import Verif.Spec.Supersingular
import Verif.Props.CsidhSuper
import Verif.Model.MkemSteps
import Verif.Lemmas.MkemSteps
import Verif.Props.MkemSteps
import Verif.Model.CsidhMem
import Verif.Lemmas.CsidhMem
import Verif.Props.CsidhMem
import Verif.Model.SidhMem
import Verif.Lemmas.SidhMem
import Verif.Props.SidhMem
import Verif.Model.Slices
import Verif.Lemmas.Slices
import Verif.Props.Slices
import Verif.Props.DRBGSeed
import Verif.Model.Steps
import Verif.Model.Sha3Steps
import Verif.Spec.SpongeShape
import Verif.Lemmas.Steps
import Verif.Lemmas.Sha3Steps
import Verif.Props.Sha3Steps
import Verif.Model.AESSteps
import Verif.Lemmas.AESSteps
import Verif.Props.AESSteps
import Verif.Model.SM3Steps
import Verif.Lemmas.SM3Steps
import Verif.Props.SM3Steps
import Verif.Props.CsidhSteps
import Verif.Props.SidhInit
import Verif.Props.DRBGSteps
import Verif.Props.Failures
import Verif.Props.SikePanic
import Verif.Props.SikeOverlap
import Verif.Props.Readers
import Verif.Props.MkemPanic
import Verif.Props.CsidhPanic
import Verif.Props.CsidhShared
import Verif.Props.DRBGShared
import Verif.Props.SikeShared
import Verif.Props.SikeSharedDec
import Verif.Props.SikeSharedRun
