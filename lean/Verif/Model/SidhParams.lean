import Verif.Model.SidhFp2
/-
The constants of dh/sidh/internal/{p434,p503,p751}/params.go, transcribed by gen/gensidhparams.py.
Arrays are cut to FpWords words (the remaining ones are zero in the source).
-/
namespace Model.Sidh
open Model

/-- p434/params.go:20-41, 64 `P434`, `P434x2`, `P434p1`, `P434R2`, `P434p1Zeros` and fp2.go:31-33 the tables of `p34` -/
def prime434 : Prime where
  n := 7
  p := [0xffffffffffffffff, 0xffffffffffffffff, 0xffffffffffffffff, 0xfdc1767ae2ffffff, 0x7bc65c783158aea3, 0x6cfc5fd681c52056, 0x2341f27177344]
  px2 := [0xfffffffffffffffe, 0xffffffffffffffff, 0xffffffffffffffff, 0xfb82ecf5c5ffffff, 0xf78cb8f062b15d47, 0xd9f8bfad038a40ac, 0x4683e4e2ee688]
  p1 := [0x0, 0x0, 0x0, 0xfdc1767ae3000000, 0x7bc65c783158aea3, 0x6cfc5fd681c52056, 0x2341f27177344]
  r2 := [0x28e55b65dcd69b30, 0xacec7367768798c2, 0xab27973f8311688d, 0x175cc6af8d6c7c0b, 0xabcd92bf2dde347e, 0x69e16a61c7686d9a, 0x25a89bcdd12a]
  p1Zeros := 3
  powStrategy := [3, 10, 7, 5, 6, 5, 3, 8, 4, 7, 5, 6, 4, 5, 9, 6, 3, 11, 5, 5, 2, 8, 4, 7, 7, 8, 5, 6, 4, 8, 5, 2, 10, 6, 5, 4, 8, 5, 5, 5, 5, 5, 5, 5, 5, 5, 5, 5, 5, 5, 5, 5, 5, 5, 5, 5, 5, 5, 5, 5, 5, 5, 5, 5, 5, 5, 5, 5, 5, 5, 5, 5, 5, 5, 5, 5, 5, 5, 5, 1]
  mulStrategy := [2, 15, 9, 8, 14, 12, 2, 8, 5, 15, 8, 15, 6, 6, 3, 2, 0, 10, 9, 13, 1, 12, 3, 7, 1, 10, 8, 11, 2, 15, 14, 1, 11, 12, 14, 3, 11, 15, 15, 15, 15, 15, 15, 15, 15, 15, 15, 15, 15, 15, 15, 15, 15, 15, 15, 15, 15, 15, 15, 15, 15, 15, 15, 15, 15, 15, 15, 15, 15, 15, 15, 15, 15, 15, 15, 15, 15, 15, 15, 0]
  initialMul := 8

/-- p434/params.go:44-48 `half` -/
def half434 : Fp2 :=
  ⟨[0x3a16, 0x0, 0x0, 0x5c87fa027e000000, 0x6c00d27daacfd66a, 0x74992a2a2fbba086, 0x767753de976d],
    [0x0, 0x0, 0x0, 0x0, 0x0, 0x0, 0x0]⟩

/-- p434/params.go:51-55 `one` -/
def one434 : Fp2 :=
  ⟨[0x742c, 0x0, 0x0, 0xb90ff404fc000000, 0xd801a4fb559facd4, 0xe93254545f77410c, 0xeceea7bd2eda],
    [0x0, 0x0, 0x0, 0x0, 0x0, 0x0, 0x0]⟩

/-- p434/params.go:58-62 `six` -/
def six434 : Fp2 :=
  ⟨[0x2b90a, 0x0, 0x0, 0x5adccb2822000000, 0x187d24f39f0cafb4, 0x9d353a4d394145a0, 0x12559a0403298],
    [0x0, 0x0, 0x0, 0x0, 0x0, 0x0, 0x0]⟩

/-- p434/params.go:76-128 `params.A` -/
def domA434 : DomainParams where
  affineP := ⟨[0x5adf455c5c345bf, 0x91935c5cc767ac2b, 0xafe4e879951f0257, 0x70e792dc89fa27b1, 0xf797f526bb48c8cd, 0x2181db6131af621f, 0xa1c08b1ecc4],
    [0x74840eb87cda7788, 0x2971aa0ecf9f9d0b, 0xcb5732bdf41715d5, 0x8cd8e51f7aacffaa, 0xa7f424730d7e419f, 0xd671eb919a179e8c, 0xffa26c5a924a]⟩
  affineQ := ⟨[0xfec6e64588b7273b, 0xd2a626d74cbbf1c6, 0xf8f58f07a78098c7, 0xe23941f470841b03, 0x1b63eda2045538dd, 0x735cfeb0ffd49215, 0x1c4cb77542876],
    [0xadb0f733c17ffdd6, 0x6affbd037da0a050, 0x680ec43db144e02f, 0x1e2e5d5ff524e374, 0xe2dda115260e2995, 0xa6e4b552e2ede508, 0x18eccddf4b53e]⟩
  affineR := ⟨[0x1ba4db518cd6c7d, 0x2cb0251fe3cc0611, 0x259b0c6949a9121b, 0x60e17ac16d2f82ad, 0x3aa41f1ce175d92d, 0x413fbe6a9b9bc4f3, 0x22a81d8d55643],
    [0xb8adbc70fc82e54a, 0xef9cddb0d5fadded, 0x5820c734c80096a0, 0x7799994baa96e0e4, 0x44961599e379af8, 0xdb2b94fbf09f27e2, 0xb87fc716c0c6]⟩
  isogenyStrategy := [48, 28, 16, 8, 4, 2, 1, 1, 2, 1, 1, 4, 2, 1, 1, 2, 1, 1, 8, 4, 2, 1, 1, 2, 1, 1, 4, 2, 1, 1, 2, 1, 1, 13, 7, 4, 2, 1, 1, 2, 1, 1, 3, 2, 1, 1, 1, 1, 5, 4, 2, 1, 1, 2, 1, 1, 2, 1, 1, 1, 21, 12, 7, 4, 2, 1, 1, 2, 1, 1, 3, 2, 1, 1, 1, 1, 5, 3, 2, 1, 1, 1, 1, 2, 1, 1, 1, 9, 5, 3, 2, 1, 1, 1, 1, 2, 1, 1, 1, 4, 2, 1, 1, 1, 2, 1, 1]
  secretBitLen := 216
  secretByteLen := 28

/-- p434/params.go:129-183 `params.B` -/
def domB434 : DomainParams where
  affineP := ⟨[0x6e5497556edd48a3, 0x2a61b501546f1c05, 0xeb919446d049887d, 0x5864a4a69d450c4f, 0xb883f276a6490d2b, 0x22cc287022d5f5b9, 0x1bed4772e551f],
    [0x0, 0x0, 0x0, 0x0, 0x0, 0x0, 0x0]⟩
  affineQ := ⟨[0xfae2a3f93d8b6b8e, 0x494871f51700fe1c, 0xef1a94228413c27c, 0x498ff4a4af60bd62, 0xb00ad2a708267e8a, 0xf4328294e017837f, 0x34080181d8ae],
    [0x0, 0x0, 0x0, 0x0, 0x0, 0x0, 0x0]⟩
  affineR := ⟨[0x283b34fafefdc8e4, 0x9208f44977c3e647, 0x7deae962816f4e9a, 0x68a2ba8aa262ec9d, 0x8176f112ea43f45b, 0x2106d022634f504, 0x7e8a50f02e37],
    [0xb378b7c1da22ccb1, 0x6d089c99ad1d9230, 0xebe15711813e2369, 0x2b35a68239d48a53, 0x445f6fd138407c93, 0xbef93b29a3f6b54b, 0x173fa910377d3]⟩
  isogenyStrategy := [66, 33, 17, 9, 5, 3, 2, 1, 1, 1, 1, 2, 1, 1, 1, 4, 2, 1, 1, 1, 2, 1, 1, 8, 4, 2, 1, 1, 1, 2, 1, 1, 4, 2, 1, 1, 2, 1, 1, 16, 8, 4, 2, 1, 1, 1, 2, 1, 1, 4, 2, 1, 1, 2, 1, 1, 8, 4, 2, 1, 1, 2, 1, 1, 4, 2, 1, 1, 2, 1, 1, 32, 16, 8, 4, 3, 1, 1, 1, 1, 2, 1, 1, 4, 2, 1, 1, 2, 1, 1, 8, 4, 2, 1, 1, 2, 1, 1, 4, 2, 1, 1, 2, 1, 1, 16, 8, 4, 2, 1, 1, 2, 1, 1, 4, 2, 1, 1, 2, 1, 1, 8, 4, 2, 1, 1, 2, 1, 1, 4, 2, 1, 1, 2, 1, 1]
  secretBitLen := 217
  secretByteLen := 28

/-- p434/params.go:66-192 `params` -/
def params434 : SidhParams where
  id := 2
  prime := prime434
  bytelen := 55
  publicKeySize := 330
  sharedSecretSize := 110
  A := domA434
  B := domB434
  oneFp2 := one434
  halfFp2 := half434
  msgLen := 16
  kemSize := 16
  ciphertextSize := 346
  initA := six434
  initC := one434

/-- p503/params.go:25-46, 55 `P503`, `P503x2`, `P503p1`, `P503R2`, `P503p1Zeros` and fp2.go:31-33 the tables of `p34` -/
def prime503 : Prime where
  n := 8
  p := [0xffffffffffffffff, 0xffffffffffffffff, 0xffffffffffffffff, 0xabffffffffffffff, 0x13085bda2211e7a0, 0x1b9bf6c87b7e7daf, 0x6045c6bdda77a4d0, 0x4066f541811e1e]
  px2 := [0xfffffffffffffffe, 0xffffffffffffffff, 0xffffffffffffffff, 0x57ffffffffffffff, 0x2610b7b44423cf41, 0x3737ed90f6fcfb5e, 0xc08b8d7bb4ef49a0, 0x80cdea83023c3c]
  p1 := [0x0, 0x0, 0x0, 0xac00000000000000, 0x13085bda2211e7a0, 0x1b9bf6c87b7e7daf, 0x6045c6bdda77a4d0, 0x4066f541811e1e]
  r2 := [0x5289a0cf641d011f, 0x9b88257189fed2b9, 0xa3b365d58dc8f17a, 0x5bc57ab6eff168ec, 0x9e51998bd84d4423, 0xbf8999cbac3b5695, 0x46e9127bce14cdb6, 0x3f6cfce8b81771]
  p1Zeros := 3
  powStrategy := [12, 5, 5, 2, 7, 11, 3, 8, 4, 11, 4, 7, 5, 6, 3, 7, 5, 7, 2, 12, 5, 6, 4, 6, 8, 6, 4, 7, 5, 5, 8, 5, 8, 5, 5, 8, 9, 3, 6, 2, 10, 6, 5, 5, 5, 5, 5, 5, 5, 5, 5, 5, 5, 5, 5, 5, 5, 5, 5, 5, 5, 5, 5, 5, 5, 5, 5, 5, 5, 5, 5, 5, 5, 5, 5, 5, 5, 5, 5, 5, 5, 5, 5, 5, 5, 5, 5, 5, 5, 5, 3]
  mulStrategy := [12, 11, 10, 0, 1, 8, 3, 7, 1, 8, 3, 6, 7, 14, 2, 14, 14, 9, 0, 13, 9, 15, 5, 12, 7, 13, 7, 15, 6, 7, 9, 0, 5, 7, 6, 8, 8, 3, 7, 0, 10, 15, 15, 15, 15, 15, 15, 15, 15, 15, 15, 15, 15, 15, 15, 15, 15, 15, 15, 15, 15, 15, 15, 15, 15, 15, 15, 15, 15, 15, 15, 15, 15, 15, 15, 15, 15, 15, 15, 15, 15, 15, 15, 15, 15, 15, 15, 15, 15, 15, 3]
  initialMul := 0

/-- p503/params.go:64-68 `half` -/
def half503 : Fp2 :=
  ⟨[0x1fc, 0x0, 0x0, 0xb000000000000000, 0x3b69bb2464785d2a, 0x36824a2af0fe9896, 0xf5899f427a94f309, 0x33b15203c83bb8],
    [0x0, 0x0, 0x0, 0x0, 0x0, 0x0, 0x0, 0x0]⟩

/-- p503/params.go:58-62 `one` -/
def one503 : Fp2 :=
  ⟨[0x3f9, 0x0, 0x0, 0xb400000000000000, 0x63cb1a6ea6ded2b4, 0x51689d8d667eb37d, 0x8acd77c71ab24142, 0x26fbaec60f5953],
    [0x0, 0x0, 0x0, 0x0, 0x0, 0x0, 0x0, 0x0]⟩

/-- p503/params.go:70-74 `six` -/
def six503 : Fp2 :=
  ⟨[0x17d8, 0x0, 0x0, 0xe000000000000000, 0x30b1e6e3a51520fa, 0xb13bc3bf6ffb3992, 0x8045412eeb3e3ded, 0x69182e2159dbb8],
    [0x0, 0x0, 0x0, 0x0, 0x0, 0x0, 0x0, 0x0]⟩

/-- p503/params.go:82-132 `params.A` -/
def domA503 : DomainParams where
  affineP := ⟨[0x5d083011589ad893, 0xadfd8d2cb67d0637, 0x330c9ac34ffb6361, 0xf0d47489a2e805a2, 0x27e2789259c6b8dc, 0x63866a2c121931b9, 0x8d4c65a7137dcf44, 0x3a183ae5967b3f],
    [0x7e3541b8c96d1519, 0xd3adaeec0d61a26c, 0xc0a2219ce7703dd9, 0xff3e46658fcdbc52, 0xd5b38deae6e196ff, 0x1aac826364956d58, 0xec9f4875b9a5f27a, 0x1b0b475ab99843]⟩
  affineQ := ⟨[0x4d83695107d03bad, 0x221f3299005e2fcf, 0x78e6ae22f30decf2, 0x6d982db5111253e4, 0x504c80a8ab4526a8, 0xefd0c3aa210bb024, 0xcb77483501dc6fcf, 0x1052544a96bdf3],
    [0xd74fe3402bcae47, 0xdf5b8cda832d8aed, 0xb86bcf06e4bd837e, 0x892a2933a0fa1f63, 0x9f88fc67b6ccb461, 0x822926ea9dda3ac8, 0xeac8dde5855425ed, 0x618fe6da37a80]⟩
  affineR := ⟨[0x1d9d32d2dc877c17, 0x5517cd8f71d5b02b, 0x395afb8f6b60c117, 0x3ae31ac85f9098c8, 0x5f5341c198450848, 0xf8c609dbea435c6a, 0xd832bc7edc7ba5e4, 0x2ad98aa6968bf5],
    [0xc466cab0f73c2e5b, 0x7b1817148fb2cf9c, 0x873e87c099e470a0, 0xbb17ac6d17a7bac1, 0xa146fdcd0f2e2a58, 0x88b311e9ceab6201, 0x37604cf5c7951757, 0x6804071c74bf9]⟩
  isogenyStrategy := [61, 32, 16, 8, 4, 2, 1, 1, 2, 1, 1, 4, 2, 1, 1, 2, 1, 1, 8, 4, 2, 1, 1, 2, 1, 1, 4, 2, 1, 1, 2, 1, 1, 16, 8, 4, 2, 1, 1, 2, 1, 1, 4, 2, 1, 1, 2, 1, 1, 8, 4, 2, 1, 1, 2, 1, 1, 4, 2, 1, 1, 2, 1, 1, 29, 16, 8, 4, 2, 1, 1, 2, 1, 1, 4, 2, 1, 1, 2, 1, 1, 8, 4, 2, 1, 1, 2, 1, 1, 4, 2, 1, 1, 2, 1, 1, 13, 8, 4, 2, 1, 1, 2, 1, 1, 4, 2, 1, 1, 2, 1, 1, 5, 4, 2, 1, 1, 2, 1, 1, 2, 1, 1, 1]
  secretBitLen := 250
  secretByteLen := 32

/-- p503/params.go:133-185 `params.B` -/
def domB503 : DomainParams where
  affineP := ⟨[0xdf630fc5fb2468db, 0xc30c5541c102040e, 0x3cdc9987b76511fc, 0xf54b5a09353d0cdd, 0x3adba8e00703c42f, 0x8253f9303ddc95d0, 0x62d30778763abfd7, 0x1cd00fb581cd55],
    [0x0, 0x0, 0x0, 0x0, 0x0, 0x0, 0x0, 0x0]⟩
  affineQ := ⟨[0x2e3457a12b429261, 0x311f94e89627dcf8, 0x5b71c98fd1db73f6, 0x3671db7dcfc21541, 0xb6d1484c9fe0cf4f, 0x19cd110717356e35, 0xf4f9fb00ac9919df, 0x35bc124d38a70b],
    [0x0, 0x0, 0x0, 0x0, 0x0, 0x0, 0x0, 0x0]⟩
  affineR := ⟨[0x2e08bb99413d2952, 0xd3021467cd088d72, 0x21017af859752245, 0x26314ed8ffd9de5c, 0x4af43c73344b6686, 0xcfa1f91149df0993, 0xf327a95365587a89, 0xdbf54e03d3906],
    [0x3e03ff342f5f304, 0x993d604d7b4b6e56, 0x80412f4d9280e71f, 0xffdc9ef990b3982, 0xe584e64c51604931, 0x1374f42ac8b0bbd7, 0x7d5bc37dfa41a5f, 0x396ccfd61fd34c]⟩
  isogenyStrategy := [71, 38, 21, 13, 8, 4, 2, 1, 1, 2, 1, 1, 4, 2, 1, 1, 2, 1, 1, 5, 4, 2, 1, 1, 2, 1, 1, 2, 1, 1, 1, 9, 5, 3, 2, 1, 1, 1, 1, 2, 1, 1, 1, 4, 2, 1, 1, 1, 2, 1, 1, 17, 9, 5, 3, 2, 1, 1, 1, 1, 2, 1, 1, 1, 4, 2, 1, 1, 1, 2, 1, 1, 8, 4, 2, 1, 1, 1, 2, 1, 1, 4, 2, 1, 1, 2, 1, 1, 33, 17, 9, 5, 3, 2, 1, 1, 1, 1, 2, 1, 1, 1, 4, 2, 1, 1, 1, 2, 1, 1, 8, 4, 2, 1, 1, 1, 2, 1, 1, 4, 2, 1, 1, 2, 1, 1, 16, 8, 4, 2, 1, 1, 1, 2, 1, 1, 4, 2, 1, 1, 2, 1, 1, 8, 4, 2, 1, 1, 2, 1, 1, 4, 2, 1, 1, 2, 1, 1]
  secretBitLen := 252
  secretByteLen := 32

/-- p503/params.go:76-198 `params` -/
def params503 : SidhParams where
  id := 0
  prime := prime503
  bytelen := 63
  publicKeySize := 378
  sharedSecretSize := 126
  A := domA503
  B := domB503
  oneFp2 := one503
  halfFp2 := half503
  msgLen := 24
  kemSize := 24
  ciphertextSize := 402
  initA := six503
  initC := one503

/-- p751/params.go:21-46, 49 `P751`, `P751x2`, `P751p1`, `P751R2`, `P751p1Zeros` and fp2.go:31-33 the tables of `p34` -/
def prime751 : Prime where
  n := 12
  p := [0xffffffffffffffff, 0xffffffffffffffff, 0xffffffffffffffff, 0xffffffffffffffff, 0xffffffffffffffff, 0xeeafffffffffffff, 0xe3ec968549f878a8, 0xda959b1a13f7cc76, 0x84e9867d6ebe876, 0x8562b5045cb25748, 0xe12909f97badc66, 0x6fe5d541f71c]
  px2 := [0xfffffffffffffffe, 0xffffffffffffffff, 0xffffffffffffffff, 0xffffffffffffffff, 0xffffffffffffffff, 0xdd5fffffffffffff, 0xc7d92d0a93f0f151, 0xb52b363427ef98ed, 0x109d30cfadd7d0ed, 0xac56a08b964ae90, 0x1c25213f2f75b8cd, 0xdfcbaa83ee38]
  p1 := [0x0, 0x0, 0x0, 0x0, 0x0, 0xeeb0000000000000, 0xe3ec968549f878a8, 0xda959b1a13f7cc76, 0x84e9867d6ebe876, 0x8562b5045cb25748, 0xe12909f97badc66, 0x6fe5d541f71c]
  r2 := [0x233046449dad4058, 0xdb010161a696452a, 0x5e36941472e3fd8e, 0xf40bfe2082a2e706, 0x4932cca8904f8751, 0x1f735f1f1ee7fc81, 0xa24f4d80c1048e18, 0xb56c383ccdb607c5, 0x441dd47b735f9c90, 0x5673ed2c6a6ac82a, 0x6c905261132294b, 0x41ad830f1f35]
  p1Zeros := 5
  powStrategy := [5, 7, 6, 2, 10, 4, 6, 9, 8, 5, 9, 4, 7, 5, 5, 4, 8, 3, 9, 5, 5, 4, 10, 4, 6, 6, 6, 5, 8, 9, 3, 4, 9, 4, 5, 6, 6, 2, 9, 4, 5, 5, 5, 7, 7, 9, 4, 6, 4, 8, 5, 8, 6, 6, 2, 9, 7, 4, 8, 8, 8, 4, 6, 5, 5, 5, 5, 5, 5, 5, 5, 5, 5, 5, 5, 5, 5, 5, 5, 5, 5, 5, 5, 5, 5, 5, 5, 5, 5, 5, 5, 5, 5, 5, 5, 5, 5, 5, 5, 5, 5, 5, 5, 5, 5, 5, 5, 5, 5, 5, 5, 5, 5, 5, 5, 5, 5, 5, 5, 5, 5, 5, 5, 5, 5, 5, 5, 5, 5, 5, 5, 5, 5, 5, 5, 5, 2]
  mulStrategy := [15, 11, 10, 0, 15, 3, 3, 3, 4, 4, 9, 7, 11, 11, 5, 3, 12, 2, 10, 8, 5, 2, 8, 3, 5, 4, 11, 4, 0, 9, 2, 1, 12, 7, 5, 14, 15, 0, 14, 5, 6, 4, 5, 13, 6, 9, 7, 15, 1, 14, 11, 15, 12, 5, 0, 10, 9, 7, 7, 10, 14, 6, 11, 15, 15, 15, 15, 15, 15, 15, 15, 15, 15, 15, 15, 15, 15, 15, 15, 15, 15, 15, 15, 15, 15, 15, 15, 15, 15, 15, 15, 15, 15, 15, 15, 15, 15, 15, 15, 15, 15, 15, 15, 15, 15, 15, 15, 15, 15, 15, 15, 15, 15, 15, 15, 15, 15, 15, 15, 15, 15, 15, 15, 15, 15, 15, 15, 15, 15, 15, 15, 15, 15, 15, 15, 15, 1]
  initialMul := 13

/-- p751/params.go:60-66 `half` -/
def half751 : Fp2 :=
  ⟨[0x124d6, 0x0, 0x0, 0x0, 0x0, 0xb8e0000000000000, 0x9c8a2434c0aa7287, 0xa206996ca9a378a3, 0x6876280d41a41b52, 0xe903b49f175ce04f, 0xf8511860666d227, 0x4ea07cff6e7f],
    [0x0, 0x0, 0x0, 0x0, 0x0, 0x0, 0x0, 0x0, 0x0, 0x0, 0x0, 0x0]⟩

/-- p751/params.go:52-58 `one` -/
def one751 : Fp2 :=
  ⟨[0x249ad, 0x0, 0x0, 0x0, 0x0, 0x8310000000000000, 0x5527b1e4375c6c66, 0x697797bf3f4f24d0, 0xc89db7b2ac5c4e2e, 0x4ca4b439d2076956, 0x10f7926c7512c7e9, 0x2d5b24bce5e2],
    [0x0, 0x0, 0x0, 0x0, 0x0, 0x0, 0x0, 0x0, 0x0, 0x0, 0x0, 0x0]⟩

/-- p751/params.go:68-74 `six` -/
def six751 : Fp2 :=
  ⟨[0xdba10, 0x0, 0x0, 0x0, 0x0, 0x3500000000000000, 0x3714fe4eb8399915, 0xc3a2584753eb43f4, 0xa3151d605c520428, 0xc116cf5232c7c978, 0x49a84d4b8efaf6aa, 0x305731e97514],
    [0x0, 0x0, 0x0, 0x0, 0x0, 0x0, 0x0, 0x0, 0x0, 0x0, 0x0, 0x0]⟩

/-- p751/params.go:82-153 `params.A` -/
def domA751 : DomainParams where
  affineP := ⟨[0x884f46b74000baa8, 0xba52630f939dec20, 0xc16fb97ba714a04d, 0x82536745b1ab3db, 0x1117157f446f9e82, 0xd2f27d621a018490, 0x6b24ab523d544bcd, 0x9307d6aa2ea85c94, 0xe1a096729528f20f, 0x896446f868f3255c, 0x2401d996b1bff8a5, 0xef8786a5c0a],
    [0xaeb78b3b96f59394, 0xab26681e29c90b74, 0xe520ac30fdc4acf1, 0x870aaae3a4b8111b, 0xf875bdb738d64eff, 0x50109a7ecd7ed6bc, 0x4cc64848ff0c56fb, 0xe617cb6c519102c9, 0x9c74b3835921e609, 0xc91ddae4a35a7146, 0x7fc82a155c1b9129, 0x214fa6b980b3]⟩
  affineQ := ⟨[0xf93cc38680a8ca9, 0x762e733822e7fed7, 0xe549f005ac0adb67, 0x94a71fdd2c43a4ed, 0xd48645c2b04721c5, 0x432da1fe4d4ca4dc, 0xbc99655faa7a80e8, 0xb2c6d502bcfd4823, 0xee92f40ca2ec8bdb, 0x7b074132efb6d16c, 0x3340b46fa38a7633, 0x215749657f6c],
    [0xecff375bf3079f4c, 0xfbfe74b043e80ef3, 0x17376cbe3c5c7ad1, 0xc06327a7e29cdbf2, 0x2111649c438bf3d4, 0xc1f9298261ba2e97, 0x1f9fece869cfd1c2, 0x1a39b4fc9346d62, 0x147cd1d3e82a3c9f, 0xde84e9d249e533ee, 0x1c48a5adfb7c578d, 0x61aca0b82e1d]⟩
  affineR := ⟨[0x1600c525d41059f1, 0xa596899a0a1d83f7, 0x6bfdeed6d2b23f35, 0x5c7e707270c23910, 0x276ca1a4e8369411, 0xb193651a602925a0, 0x243d239f1ca1f04a, 0x543dc6da457860ad, 0xcda590f325181de9, 0xd3ab7acfda80b395, 0x6c97468580fddf7b, 0x352a3e5c4c77],
    [0x9b794f9fd1cc3ee8, 0xdb32e40a9b2fd23e, 0x26192a2542e42b67, 0xa18e94fca045bce7, 0x96dc1bc38e7cda2d, 0x9a1d91b752487de2, 0xcc63763987436da3, 0x1316717aaccc551d, 0xc4c368a4632afe72, 0x4b6ea85c9ccd5710, 0x7a12cad582c7bc9a, 0x1c7e240149bf]⟩
  isogenyStrategy := [80, 48, 27, 15, 8, 4, 2, 1, 1, 2, 1, 1, 4, 2, 1, 1, 2, 1, 1, 7, 4, 2, 1, 1, 2, 1, 1, 3, 2, 1, 1, 1, 1, 12, 7, 4, 2, 1, 1, 2, 1, 1, 3, 2, 1, 1, 1, 1, 5, 3, 2, 1, 1, 1, 1, 2, 1, 1, 1, 21, 12, 7, 4, 2, 1, 1, 2, 1, 1, 3, 2, 1, 1, 1, 1, 5, 3, 2, 1, 1, 1, 1, 2, 1, 1, 1, 9, 5, 3, 2, 1, 1, 1, 1, 2, 1, 1, 1, 4, 2, 1, 1, 1, 2, 1, 1, 33, 20, 12, 7, 4, 2, 1, 1, 2, 1, 1, 3, 2, 1, 1, 1, 1, 5, 3, 2, 1, 1, 1, 1, 2, 1, 1, 1, 8, 5, 3, 2, 1, 1, 1, 1, 2, 1, 1, 1, 4, 2, 1, 1, 2, 1, 1, 16, 8, 4, 2, 1, 1, 1, 2, 1, 1, 4, 2, 1, 1, 2, 1, 1, 8, 4, 2, 1, 1, 2, 1, 1, 4, 2, 1, 1, 2, 1, 1]
  secretBitLen := 372
  secretByteLen := 47

/-- p751/params.go:154-230 `params.B` -/
def domB751 : DomainParams where
  affineP := ⟨[0x85691aaf4015f88c, 0x7478c5b8c36e9631, 0x7ef2a185de4dd6e2, 0x943bbee46beb9dc7, 0x1a3ec62798792d22, 0x791bc4b084b31d69, 0x3dbe6522cea17c4, 0x4749aa65d665d83, 0x3d52b5c45ef450f3, 0xb4219848e36947d, 0xa4cf7070466bde27, 0x334b1fa6d193],
    [0x0, 0x0, 0x0, 0x0, 0x0, 0x0, 0x0, 0x0, 0x0, 0x0, 0x0, 0x0]⟩
  affineQ := ⟨[0x8e7cb3fa53211340, 0xd67ce54f7a05eee0, 0xfddc2c8bce46fc38, 0x8587fae3110df1e, 0xd6b8246fa22b058b, 0x4dac3acc905a5dbd, 0x51d0bf2fadced3e8, 0xe5a2406df6484425, 0x907f177584f671b8, 0x4738a2ffcced051c, 0x2b0067b4177e4853, 0x2806ac948d3d],
    [0x0, 0x0, 0x0, 0x0, 0x0, 0x0, 0x0, 0x0, 0x0, 0x0, 0x0, 0x0]⟩
  affineR := ⟨[0xb56457016d1d6d1c, 0x3deccb38f39c491, 0xdfb910ac8a559452, 0xa9d0f17d1ff24883, 0x8562bbaf515c248c, 0x249b2a6ddb1cb67d, 0x3131af96fb46835c, 0xe10258398480c3e1, 0xeab5e2b872d4fab1, 0xb71e63875faeb1df, 0xf8384d4f13757cf6, 0x361ec9b09912],
    [0x58c967899ed16ef4, 0x81998376dc622a4b, 0x3d1c1dcfe0b12681, 0x9347debb953e1730, 0x9abb344d3a82c2d7, 0xe4881bd2820552b2, 0x37247923d90266, 0x2e3156edb157e5a5, 0xf86a46a7506823f7, 0x8fe5523a7b7f1cfc, 0xfa3cffa38372f67b, 0x692dce85ffbd]⟩
  isogenyStrategy := [112, 63, 32, 16, 8, 4, 2, 1, 1, 2, 1, 1, 4, 2, 1, 1, 2, 1, 1, 8, 4, 2, 1, 1, 2, 1, 1, 4, 2, 1, 1, 2, 1, 1, 16, 8, 4, 2, 1, 1, 2, 1, 1, 4, 2, 1, 1, 2, 1, 1, 8, 4, 2, 1, 1, 2, 1, 1, 4, 2, 1, 1, 2, 1, 1, 31, 16, 8, 4, 2, 1, 1, 2, 1, 1, 4, 2, 1, 1, 2, 1, 1, 8, 4, 2, 1, 1, 2, 1, 1, 4, 2, 1, 1, 2, 1, 1, 15, 8, 4, 2, 1, 1, 2, 1, 1, 4, 2, 1, 1, 2, 1, 1, 7, 4, 2, 1, 1, 2, 1, 1, 3, 2, 1, 1, 1, 1, 49, 31, 16, 8, 4, 2, 1, 1, 2, 1, 1, 4, 2, 1, 1, 2, 1, 1, 8, 4, 2, 1, 1, 2, 1, 1, 4, 2, 1, 1, 2, 1, 1, 15, 8, 4, 2, 1, 1, 2, 1, 1, 4, 2, 1, 1, 2, 1, 1, 7, 4, 2, 1, 1, 2, 1, 1, 3, 2, 1, 1, 1, 1, 21, 12, 8, 4, 2, 1, 1, 2, 1, 1, 4, 2, 1, 1, 2, 1, 1, 5, 3, 2, 1, 1, 1, 1, 2, 1, 1, 1, 9, 5, 3, 2, 1, 1, 1, 1, 2, 1, 1, 1, 4, 2, 1, 1, 1, 2, 1, 1]
  secretBitLen := 378
  secretByteLen := 48

/-- p751/params.go:76-244 `params` -/
def params751 : SidhParams where
  id := 1
  prime := prime751
  bytelen := 94
  publicKeySize := 564
  sharedSecretSize := 188
  A := domA751
  B := domB751
  oneFp2 := one751
  halfFp2 := half751
  msgLen := 32
  kemSize := 32
  ciphertextSize := 596
  initA := six751
  initC := one751

end Model.Sidh
