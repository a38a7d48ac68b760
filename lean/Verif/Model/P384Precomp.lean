import Verif.Model.Ec

/-!
`CURVE_GENERATOR_PRECOMP_W5`, graviola/src/mid/p384/precomp.rs:5-310, as 16 triples of coordinates; the six words of a coordinate
are joined into one number.  Written by tools/gen_precomp.py.
-/
namespace Verif.Ec.P384Precomp

/-- The coordinates. -/
def points : List (Nat × Nat × Nat) := [
  (0x4d3aadc2299e1513812ff723614ede2b6454868459a30eff879c3afc541b4d6e20e378e2a0d6ce383dd0756649c0b528,
   0x2b78abc25a15c5e9dd8002263969a840c6c3521968f4ffd98bade7562e83b050a1bfa8bf7bb4a9ac23043dad4b03a4fe,
   0x000000000000000000000000000000000000000000000000000000000000000100000000ffffffffffffffff00000001),
  (0x18e5fd62e82fa916c2aaeeb12630cb3a2bfbb6c63049e16e108eafd9577216028f8dcaccf02dd53f1775f419171377ce,
   0x49ef8462f3ea48281b0f5f11e8de0342f5330ad438f6d02f6b7f49320aa3a6d605acb8f8ef83f274d9962e22eff819e0,
   0x56f15784b42b8bd3bb00044c72d350818d86a432d1e9ffb3175bceac5d0760a1437f517ef769535846087b5a960749fc),
  (0x2d535cc6315b11ba1d45313b794faae42c04e80e730df739949d88ed10398d549d262e1d2ed69e7d64018464334fe1f9,
   0xe45a2834e0843bbb2bc56b20f5153d771781fbdb6f3c54306e3ea8b51dfb3f1d0d46101e81b8fd346e35ed3f5da73b5e,
   0x8dc2b0066916d5562fa636eb6dc6b2b703515897df317b512f5e8ab84db2231c99ea0ed1583651da9d03fd75876a6060),
  (0x31b773cc585289b4faa920f2840379c468f967e4ffa962044645e1afb14b053c82f2a7167301c0fa05959f5bd255a767,
   0x76e6e6488bec76826f78b37733b0d0a4533ea4cfe70eb8d529eae57419078617c12660c9f4d44df656792f7cbaa2db05,
   0x746d62d1169711ccf269d7051ce87ba5f5020761396b2db4bfe9cf540ffc67b80beb297c25cbf7f201a89d718fa6fd67),
  (0x58e72ff361ad326b352799e454a8fc7bdae6232091daef3cc4604334f7852242efa6020577231c9580b9903b73c565aa,
   0x02a1519df4d356d3bf3bd0f1b47e1d4e4a8aca3b80dbfd6f4ade9feecb926b798c05c5aabce38b7e1f9a16ad7c8bb2af,
   0x3cba5993dcc76bc1dd1e72a1c8c79b2c8920d57a43908c686376a4b2062b6ce09db4fd163998a0dc84a8ff129d1ce0dc),
  (0x698ce2c64969d3f52d6c681f7b5558b0ea5ae526cf00903bf3bd7e6489ee16e16f954c7c4cf740a2b1a409601e2c6802,
   0xa01fe2fbf9d3778bd58d314f6eef2c7c7f98d32254062496a98f6dd846020bc2407a90426c821e8e4edd8a369ba46a4a,
   0x8f05a29157b2bf2f54c4416146a25efef8329b1331ce8573edd43acaefc566eece341595964a6a5d6911b4ca695fac35),
  (0x51c3675e500d5c8a1b0a66891e34d468ba74369cf45328e7b9ba084192671e67bf0986651b119e1a6ee29d985cbd8888,
   0x0d7ba674445dba81f7bb49cc584b09a4b0b21cc801a1095205cad6908db9876ba3b58f620ce72117e190ffadd615c137,
   0xadcbae961f2cdafbe21e6df6ebfc05089703ea8677a7b0dee10ac8d2664dd3e085a6239b6e3fef6274975fd5a7c899ad),
  (0x2a3e22487a82466332109079045b887e01a5e6511b5d77b8b9a65c5d7b4bece90b254e7080573ef87f74e5a88721800a,
   0xe53fdcc60ac0a00b9f9caa2a4ffe6bb0faa0d28496a8d453ac3a65179b01078454226a33e25317b2cb7fd05bb05eabce,
   0xebe7de815ad01e6377f1c7e75925fdc6c758e35d20d8100cfe32b92d0b0ea1b361e73963870e32fb54c2e6d2007b71e3),
  (0x820f5000a13e15c6f77f768b7f634472d18d79b61bc6306b2072b2844dce643bcecf4bb3e045d829743c6550a9879661,
   0x171c6395d0da24fed5ed4846738047b553457018607a99328b1c81c8bc438a2740379f9475ce2fbc53da8280634ca7ce,
   0xccc4db4dc57e466fc2b5d3684225f841ec66d87ddec4da7fa753531fdfaae63da0065a61565a414cda4c7b5a74671a07),
  (0x2d9cb33ab83b410e08552800db6a6b10e140b3109e57d3291c372ead3adc48389f0db5e364c2ef3b4018a0a75566da1e,
   0xf6eb3948c05d47b72cc298b464f0a46e1ca7b9e2e042d8351510b5563298cb2fd5814c3b0099a8e75867f6a1e4bc9b3a,
   0xb56354a38cda1e7f4d5601f7ee5bc30a4907b15420b5e092dc98b2c2557066533ffdecd0391333731728ca98990a0e5f),
  (0x99c36b49f0f19b3b149af02e4711b073528dd72030d26e37f6455e90537d1a3d538dd04cea17e61c392f2806c319a6a2,
   0x670acdab927c1980bee3a18b1fe65bf967c8017296a9f41693bee5c9af6d1ef169c893f363bfa36bb511aaf74668e5f9,
   0x932636523074a6e02852a1a021d62dcbdee3cd7444753a962f841082d95cfedbde18a865ff9706b572f86615fb9e6a28),
  (0x17299cc5a4b69d3275c670d143fc17b2d63a309ca51130bb644a1bf84f3e752c6000ad3ca13f2fdc1b0644b7e0e9c830,
   0x0905b8bfc0b107061d625838afc32551e2ba47234c3dd18ac79b03037ac9748e55d820830d826f0e84b835df60415645,
   0xbc108d226ecd34df1ed104ed9e45f078f83e5072fcca8b61248b2929af8db4c0a65b554f1a88cab2282f18f1a9103b40),
  (0x2ed1189b5fb290a4e4c0cf4af64ce1660bcb53bfbcb412067a9debeb5c92552282294d6b6f0ebb0a9fa386d0bfa4eeb9,
   0x5b95c33d275bc3834a64bc0349c8ba32d8625657079b3c0558c07623aea7247d52b86e6858c971f28364ed0b577a555e,
   0xd00a4d28ebe64d3afe210077616975858383aab3b244e274f894d03b1591df8a9ad4a15931da2f5da7a02a4288229f64),
  (0x3bcd5a6c9495c3ee816105ef3d99dce17acb17076d10eac6fab94a88a4fbdabbf3c484fc60e11ba5af9970f5b8a1fd62,
   0x828a05c09658bad88324bf3f86173882df0464813828a089ed870ebdfb6e7b8c3d084a6926749ee2957c6c8eac44c6d1,
   0x8d46614218c4b1fe6d4e598d955682a3eca43ebec0daa590358bf505fdd866d8076592b989a4d0757898a504b3052521),
  (0xf3dd2203caff6e4ab6641345b80de256bad13a945eb8728f0a6977d5c2ec07da8614e6424e427a3babea72a9d561f43b,
   0xa40f14c1ceaef00a8626bc64afeda56ed2c15182b094a12884c851e2796a1c131b1d7e8d85c3b3d9e28258415a3fd6b9,
   0xc15cadb222ad07ecfb0df3cb1dc348a492dfae32a3c03690db3c06d7124a6cc77bb73787039317696359c5a9b995c85b),
  (0x8ae8708b2eb4f4ffce0965e1ce33e46cbb6b4c83a5f59d359efd9f5bdb23f8142631077e618ff810002b5ed6e00b15ad,
   0xf2b96a01e75163d68eb92fa2c137ae839e4ae4788e580be79f1a80d581b37633f7baab618649849c9c088d7dc55ff2d9,
   0xe7da8f7d57d17c1a059ec7d143d29138c669c14e38d74dd0252d4e3b458d756e7b288df89e8174c38adb9ae9875df0b3)]

/-- The table. -/
def table : List (Jac 6) := points.map fun t => ⟨BitVec.ofNat _ t.1, BitVec.ofNat _ t.2.1, BitVec.ofNat _ t.2.2⟩

end Verif.Ec.P384Precomp
