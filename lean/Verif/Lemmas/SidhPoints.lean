import Verif.Spec.SidhFp2
/-
Affine coordinates of the starting points of SIDH (params.go holds the x-coordinates in Montgomery form; the
y-coordinates were computed by square roots and are checked in SidhBase).  Generated by gen/gensidhpoints.py.
-/
namespace Lemmas.SidhBase
open Spec.Sidh

/-- a point: x and y, each a pair (re, im) -/
structure Raw where
  x : Nat × Nat
  y : Nat × Nat

/-- `params.A.AffineP` -/
def pA : Fld → Raw
  | .p434 => ⟨(0x3ccfc5e1f050030363e6920a0f7a4c6c71e63de63a0e6475af621995705f7c84500cb2bb61e950e19eab8661d25c4a50ed279646cb48, 0x1ad1c1cae7840edda6d8a924520f60e573d3b9dfac6d189941cb22326d284a8816cc4249410fe80d68047d823c97d705246f869e3ea50),
      (0x8918bb92deaeea18696ff97ff4c425df3276b512fd5b26a79cd4a62484190b737ed1cc497e9e2a54c5f5c96f90fb59596a8190b04d1f, 0x136973098cdcd9e646070c225d0dff3019525546eb5e6d28ac91402bdb65507cc83fe191b1e57bbd9845e5e7784bcc8d61e226f3822d0)⟩
  | .p503 => ⟨(0x2ed31a03825fa14bc1d92c503c061d843223e611a92d7c5fbec0f2c915ee7eee73374df6a1161ea00cdcb786155e21fd38220c3772ce670bc68274b851678, 0x1ee4e4e9448fbbab4b5baef280a99b7bf86a1ce05d55bd603c3ba9d7c08fd8de7968b49a78851ffbc6d0a17cb2fa1b57f3babef87720dd9a489b5581f915d2),
      (0x244d5f814b6253688138e317f24975e596b09bb15c6418e5295aaf73ba7f96efed145dfae1b21a8b7b121fefa1b6e8b52f00478218589e604b97359b8a6e0f, 0x181ccc9f0cbe1390cc14149e8de88ee79992da32230dedb25f04fade07f242a9057366060cb59927db6dc8b20e6b15747156e3c5300545e9674487ab393ca7)⟩
  | .p751 => ⟨(0x4514f8cc94b140f24874f8b87281fa6004ca5b3637c68ac0c0bdb29838051f385fbbcc300bbb24bfbbf6710d7dc8b29acb81e429bd1bd5629ad0ecad7c90622f6bb801d0337ee6bc78a7f12fdcb09decfae8bfd643c89c3bac1d87f8b6fa, 0x158abf500b5914b3a96ced5fdb37d6dd925f2d6e4f7fea3cc16e1085754077737ea6f8cc74938d971da289dcf2435bcac1897d2627693f9bb167dc01be34ac494c60b8a0f65a28d7a31ea0d54640653a8099ce5a84e4f0168d818af02041),
      (0x63eef05a548d73a39a3568a4c7b85b375aac20132981400f1384fd0590f73c72e1883e68197e4d85ba680955b805432893072577870edcda4074f306d1ba51ff9d8fbe376e4369004478b03a781bcbd087f67da720d1ef5a8f758f5f2a57, 0x5ae2d9fddf8ef01a864c1235c29ab63f7520d521fb7f0e6a84e0d3250cfa58656b5a5c0e5b22edec769c39cb53114284cff5e39962e5d7fc072fa45c4e0d5340d843e5ed84b5aac6e929dffb02de9cc3a515548b7cc7ac4b3a3bd148e081)⟩

/-- `params.A.AffineQ` -/
def qA : Fld → Raw
  | .p434 => ⟨(0xc7461738340efcf09ce388f666eb38f7f3afd42dc0b664d9f461f31aa2edc6b4ab71bd42f4d7c058e13f64b237ef7ddd2abc0deb0c6c, 0x25de37157f50d75d320dd0682ab4a67e471586fbc2d31aa32e6957fa2b2614c4cd40a1e27283eaaf4272ae517847197432e2d61c85f5),
      (0x6017700c715fbe1aece88d332b6749b20d743b7859d503c390d78405c9bd5ee7e86fa12f2b0e6c0ceedbd9b6db5a09b101eb4913681a, 0x14c405e5443f3c8152a2e47e844cc7dbef8d6ac9388ac45f08ab9fab1627c1653ac5a8d5da2e61eb9b4af6268d8d5189e9a84b89a4c29)⟩
  | .p503 => ⟨(0x325cf6a8e2c6183a8b9932198039a7f965ba8587b67925d08d809dbf9a69de1b621f7f134fa2dab82ff5a2615f92cc71419fffaaf86a290d604ab167616461, 0x3e7b0494c8e60a8b72308ae09ed34845b34ea0911e356b77a11872cf7feeff745d98d0624097bc1ad7cd2adf7ffc2c1aa5ba3c6684b964fa555a0715e57db1),
      (0x3a34654000bd4cb2612017bd5a1965a9f89fe11c55d517df91b89b94f4f9c58b9a9dd056915573fedc09ccd4997e82378759e00a2de225ce04589d201fd754, 0x19def0e8930e5123a22e346b1ffbd35eb01451647d8708a4835473b2539bd26806ed105a29f2d3f7eaa262426a965338782c5d20fbf478e4d1c8dbfc5b8294)⟩
  | .p751 => ⟨(0x1723d2bfa01a78bf4e39e3a333f8a7e0b415a17f208d3419e7591d59d8abdb7ee6d2b2dfcb21ac29a40f837983c0f057fd041ad93237704f1597d87f074f682961a38b5489d1019924f8a0ef5e4f1b2e64a7ba536e219f5090f76276290e, 0x2569d7eafb6c60b244ef49e05b5e23f73c4f44169a7e02405e90ceb680cb0756054ac0e3dce95e2950334262cc973235c2f87d89500bcd465b078bd0debdf322a2f86aedfdcfee65c09377efba0c5384dd837bedb710209fbc8ddb8c35c7),
      (0x3a2da8262461ad874e264b72bba11b2529498a2ed68f2ff47f56f48b4e14e2d98f4f851edceea56dfdbe0557cc231c26c8c7ade49d14dc2e67c2d1230d54bc8ef723fb7557ac0064386eddb4ede17020e15a09e81912a76799c2212b6eab, 0x60c3a4d78db87d9379f55ec23fff5b226028fce084e26fab845934e7377645e73710e2b51dc68d5871f077e1d15a14bae0036d8d2e88deaefecccb13a8f4acd24f3f7c30c679809c2e6efd6fcc06bd168847a096138c74b3d92c48d1d7de)⟩

/-- `params.A.AffineR` -/
def rA : Fld → Nat × Nat
  | .p434 => (0xf37ab34ba0cead94f43cdc50de06ad19c67ce4928346e829cb92580da84d7c36506a2516696bbe3aeb523ad7172a6d239513c5fd2516, 0x196ca2ed06a657e90a73543f3902c208f410895b49cf84cd89be9ed6e4ee7e8df90b05f3fdb8bdfe489d1b3558e987013f9806036c5ac)
  | .p503 => (0x3d24cf1f347f1da54c1696442e6afc192cee5e320905e0eab3c9d3fb595ca26c154f39427a0416a9f36337354cf1e6e5aedd73df80c710026d49550ac8ce9f, 0x6869ea28e4cee05dcee8b08acd59775d03daa0dc8b094c85156c212c23c72cb2ab2d2d90d46375aa6d66e58e44f8f219431d3006fded7993f51649c029498)
  | .p751 => (0x6066e07f3c0d964e8bc963519fac8397df477aea9a067f3be343bc53c883af29ccf008e5a30719a29357a8c33eb3600cd078af1c40ed5792763a4d213ebde44cc623195c387e0201e7231c529a15af5ab743ee9e7c9c37af3051167525bb, 0x50e30c2c06494249bc4a144eb5f31212bd05a2af0cb3064c322fc3604fc5f5fe3a08fb3a02b05a48557e15c992254ffc8910b72b8e1328b4893cdcfbfc003878881ce390d909e39f83c5006e0ae979587775443483d13c65b107fada5165)

/-- `params.B.AffineP` -/
def pB : Fld → Raw
  | .p434 => ⟨(0x8664865ea7d816f03b31e223c26d406a2c6cd0c3d667466056aae85895ec37368bfc009dfafcb3d97e639f65e9e45f46573b0637b7a9, 0x0),
      (0x6ae515593e73976091978dfbd70bda0dd6bcaeebfdd4fb1e748ddd9ed3fdcf679726c67a3b2cc12b39805b32b612e058a4280764443b, 0x0)⟩
  | .p503 => ⟨(0x32d03fd1e99ed0cb05c0707af74617cbea5ac6b75905b4b54b1b0c2d73697840155e7b1005efb02b5d02797a8b66a5d258c76a3c9ef745cece11e9a178badf, 0x0),
      (0x2d810f828e3dc024d1bbbc7d6fa6e302cc5d458571763b7ccd0e4dbc9fa1163f0c1f8f4ae32a57f89df8d2586d2a06e9fa30442b94a725266358c45236adf3, 0x0)⟩
  | .p751 => ⟨(0x605d4697a245c394b98024a5554746dc12ff56d0c6f15d2f48123b6d9c498eee98e8f7cd6e216e2f1ff7ce0c969cca29caa2faa57174ef985ac0a504260018760e9fdf67467e20c13982ff5b49b8beab05f6023af873f827400e453432fe, 0x0),
      (0x19b16c35fb0749b460f504ad7a0ded0ccf468b6efa484a588f05471ba4c21b6c3f66b47c5f3f607d6a2ba77cc28a1db0a8007f6c01948edecc2d9afd0e834f2b9323730645899b15d493e98d5735d00e31cec01110be660380eb018df9e8, 0x0)⟩

/-- `params.B.AffineQ` -/
def qB : Fld → Raw
  | .p434 => ⟨(0x12e84d7652558e694bf84c1fbdaaf99b83b4266c32ec65b10457bcaf94c63eb063681e8b1e7398c0b241c19b9665fdb9e1406da3d3846, 0x0),
      (0x0, 0xebaaa6c731271673beece467fd5ed9cc29ab564bded7bdeaa86dd1e0fddf399edcc9b49c829ef53c7d7a35c3a0745d73c424fb4a5fd2)⟩
  | .p503 => ⟨(0x39014a74763076675d24cf3fa28318dac75bcb04e54addc6494693f72ebb7da7dc6a3bbcd188dad5bece9d6bb4abdd05db38c5fbe52d985dcaf74422c24d53, 0x0),
      (0x0, 0x25512012c90a6869c4b29b9a757a03006bc7df0bf7a2526a0713939fa48018ae3e249bd63699beb3b8dea215b7ae1b5a30fe371b64c5f1b0bf051a11d68e04)⟩
  | .p751 => ⟨(0x5bf9544781803cbd7e0ea8b96d934c5cbca970f9cc327a0a7e4dad931ec29baa8a854b8a9fde5409af96c5426fa375d99c68e9ae714172d7f04502d45307fa4839f39a28338bbafd54a461a535408367d5132e6aa0d3da6973360f8cd0f1, 0x0),
      (0x0, 0x3c93e11ffb06899fe471bf0601ab2a0920ade827fb7bc4055ed8d0fecda5994a4c2e5886d0e5abb821ce370e2d4cfe19f6d3222a83f5f6f4fbefddf9b3c5722c276f184a53cb5db310af86aa0fd833b313024988c631760ce023a01bcdbc)⟩

/-- `params.B.AffineR` -/
def rB : Fld → Nat × Nat
  | .p434 => (0x1cd28597256d4ffe7e002e87870752a8f8a64a1cc78b5a2122074783f51b4fde90e89c48ed91a8f4a0ccbacbfa7f51a89ce518a52b76c, 0x147073290d78dd0cc8420b1188187d1a49dbfa24f26aad46b2d9bb547dbb6f63a760ecb0c2b20be52fb77bd2776c3d14bcbc404736ae4)
  | .p503 => (0xc1465fd048ffb8bf2158ed57f0cfff0c4d5a4397c7542d722567700fdbb8b2825cab4b725764f5f528294b7f95c17d560e25660ad3d07ab011d95b2cb522, 0x288165466888be1e78db339034e2b8c7bdf0483bfa7ab943dfa05b2d1712317916690f5e713740e7c7d4838296e67357dc34e3460a95c330d5169721981758)
  | .p751 => (0x55e5124a05d4809585f67fe9ea1f02a06cd411f38588bb631bf789c3f98d1c3325843bb53d9b011d8bd1f682c0e4d8a5e723364364e40dad1b7a476716ac7d1ba705ccdd680bfd4fe4739cc21a9a59ed544b82566bf633e8950186a79fe3, 0x5ac57eafd6cc7569e8b53a148721953262c5b404c143380adcc184b6c21f0cafe095b7e9c79ca88791f9a72f1b2f3121829b2622515b694a16875ed637f421b539e66f2fef1ce8dcefc8aea608055e9c44077266ab64611bf851ba06c821)

end Lemmas.SidhBase
