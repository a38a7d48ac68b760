import Verif.Model.Ec

/-!
`CURVE_GENERATOR_PRECOMP_W7`, graviola/src/mid/p256/precomp.rs:5-19061, as 37 rows of 64 pairs of coordinates; the four words of a
coordinate are joined into one number.  Written by tools/gen_precomp.py.
-/
namespace Verif.Ec.P256Precomp

/-- precomp.rs, "1G..64G << 0". -/
def row0 : List (Nat × Nat) := [
  (0x18905f76a53755c679fb732b7762251075ba95fc5fedb60179e730d418a9143c, 0x8571ff1825885d85d2e88688dd21f3258b4ab8e4ba19e45cddf25357ce95560a),
  (0xf6bb32e43dcf3a3b732205038d1490d9aa6ae3c1a433827d850046d410ddd64d, 0x78c577510a5b8a3b19a8fb0e92042dbe152cd7cbeb236ff82f3648d361bee1a5),
  (0x26936a3fb6ff747e66ad77dd87cbbc98b027f84a087d81fbffac3f904eebc127, 0xd5f06a29e587cc07788208311a2ee98e583e47ad0861fe1ab04c5c1fc983a7eb),
  (0x577362f541b0176b0cdaacace8100af24650a6edc623c17374b0b50d46918dcc, 0x84b14c394c5ab8636b6c36dee5ddd22e17628471fad6f4472d96f24ce4cbaba6),
  (0xc9079605890523c8941cb5aad076c20c90ec649a94b9537dbe1b8aaec45c61f5, 0x73a076bb2dd1e9163540a9877e7a1f6873c568efe5eb882beb309b4ae7ba4f10),
  (0x13074b5954213673d50a961a5b17a3ad55ae744f346cee3e403947373e77664a, 0xa4c9916d4a07f75ff424d44cef639f11299c2b53adff14b593d36220d377e44b),
  (0x13ba5119c3123e03f43eaab50c23bb082bd20213d23c00f70746354ea0173b4f, 0xeaedd9156e240867ef933bdc77c941956742f2f25da67bdd2847d0303f5b9d4d),
  (0xb763891eb265230d8f90f02af02cfc6b462ab5c56f9b345527f14cd19499a78f, 0x56ec12f27706df76123c7b84be60bbf021e3327dcf9eba15f59da3a9532d4977),
  (0xe05b3080f0c4e16b2cc09c0444c8eb00abe6bfed59a7a84175c96e8f264e20e8, 0x086659cdfd835f9b2b6e019a88b12f1a56af7bedce5d45e31eb7777aa45f3314),
  (0xcc61c94724b3428f737d2cd648250b4998f9868a0fcf81392c18dbd19dc21ec8, 0x78719a54eb3b4ab55f7d2d65779be5d2c43a8991383fbe080c2b407880dd9e76),
  (0x3e7090f1649c90731ff3a4158dac1ab59de407956e7fdfe0ea7d260a6245e404, 0x68930023e125b88e0c0daa891ead643d250f939ee57f61c81a7685612b944e88),
  (0x4ee1df77cb83e1562409d29dee37385eabdedef5ca345a3304b71aa7d2697768, 0x7ff57c9553238aca28228cfa8ade6d66170ed2f6ca8956370cac12d91cbb5b43),
  (0x738477ac5395b759bcbcd43f559e98110e356769856fd30dccc425634b2ed709, 0xfbc08769c9e7b7977cd06422bd1f5bc168748390742ed2e335752b90c00ee17f),
  (0xfaae7332fd12c72e1717bf54c6832660126e48f77f9707e3a242a35bb0cf664a, 0x152706dc2eaa1bbbe8e4193e2a65e7dbbe29569e832237c227b52db7995d586b),
  (0xe2aa0e430ad3da09ee337424e481937003cc23ee56e27e4b72bcd8b7bc60055b, 0x2042170a7079adf464efa6de778a4797d766355442a41b2540b8524f6383c45d),
  (0x54d63c809103b723d5ef2f7c2c83f5495882e0753ffe2e6b808b0b650bc6fb80, 0x64edf7b201efe22055c4623bb1580e9e3670c3194b0b6587f2f11bd652a23f9b),
  (0xc1a35c0a6c7a574eb0f139752cfe2dfff17624b6ac0a177b97091dcbd53c5c9d, 0xebd512263274c3d02f4e247f0d1883bb0575bf30e89cb80e227d314693e79987),
  (0x675abd1b6f80ebdaa6f247ab412e29794afc964d8f8b403e5f3e51c856ada97a, 0x6c6fc7d90502394d2626927f1b847bba4b2a5caf8f4f0b3c66a2bd725e485a1d),
  (0xfe545c282897c3fcb8842277752c41ac68363aba25e1a16efea912baa5659ae8, 0xf720ee256d12597b85665e9be39508c15806244afba977c52d36e9e7dc4c696b),
  (0xe2d1eeb6fe5bfb4e048099d95dd283ba5916868f0f862bdc8a979129d2337a31, 0x5ee104e1c5fee0d09161c53f8aa95e66a2d4ec17ffffcbae82ef1c417884005d),
  (0xecead9f4c16762fc6d2a506c5a3f3b3074e1b2654783f47d562e4cecc135b208, 0xc086d5f1c9477fa37a75023e7fac29a41b0fadc083bb3c61f29dd4b2e286e5b9),
  (0xfdc777e8e93358a46a0b0685d2f8ba3dc99ffa23e3912a9a0fc611352f6f3076, 0x793e8d075d5cd0749de917da153a35b5640c2d6a4d23fea494a787bb35415f04),
  (0xaf2cea7c1727bf42d0825fa2a358406937c7a7e89e2e1f6ef4f876532de45068, 0x83d0687b9077666f48068e1371ac2f71e5fda49c27299f4a0360a4fb9e4785a9),
  (0xf97b232f2efc311561d7cbf91d2b469f6d0d755040dd9a356d3883b215d02819, 0x595dc55eca737b8a7669f03193cb750111ea494988a1e356a551d750b24bcbc7),
  (0x966742eb65432a2ee395993332f1f3af6fc1b49eed6b67b0a4a319acd837879f, 0x7b948dc356f7996812068859c9b731ee96cc631243f439504b8dc9feb4966228),
  (0x994baaa855f2fb101ac7c5eb857ff6fbe6c9267ad8b1753861e4ad32ed1f8008, 0xed178030d12e5ac714fde97b5fa944f55a39898b628ac50884cf14e11d248018),
  (0x9f8aa54b2ef7c76a49d2c9eb084ffdd7d36a42d7aebf7313042c2af497e2feb4, 0x2d431068d84bde312d97d10878eb4cbb3bd0c66fddb7fb589200b7ba09895e70),
  (0xe97f6b6af2aadb9797082ec0cfe153eb7323cb2830a6a8924b523eb7172ccd1f, 0xa9b4cc5f405852784a688b482d0cb71ea6a7f9c7804b2a681d3d393ed1a83da1),
  (0xe266f95948603d48944a70270317b9e2f1be963a0d9258805e5db46acb66e132, 0x3798142a2a3be21b8a966939777c619f90472447a2fb18a398db66735c208899),
  (0xd0288cb552b6fc3cc5f4d6cd3ac77acda3a14e49b44f65a1b4241cb13298b343, 0x460d45ce51601f72d667da379b3aa441b675511e06bf9b4ad5cc8c2f1c040abc),
  (0x948dc4f8b1fc87b48ef5689d3cf7600ddd3cf7e7473017e6e2f73c696755ff89, 0xf38ae8914d7b4745faecedfd0c9803fc2d921ca298eb6028d9e9fe814ea53299),
  (0x39227077695532a4bc6d6a58fead0197befd904c4079dfbfd8c5fccfc5e3a3d8, 0x6231d7929591c2a47b969c1aad9a2e407e449b64480a990809e23e6ddbef42f5),
  (0x33ec6868f044b10cac09c4ae65578ab985ceae7c4b68f103871514560f664534, 0xb16c4303c32f63c4f909604f763f15745509d1285847d5ef6ac4832b3a8ec1f1),
  (0xc982ddd4dd303e645b0673a375678d94caa7a5c6a391849db6ab20147ca23cd3, 0xa159100c570d74f8c77332a33c569426bba2cb1f6f876f92fd7b000b5db6f971),
  (0xca640b8642a3e5210b8e4134efc2b4c8742ee464233e76b7fd16847fdec67ef5, 0x2ba901628bb47af824e4ab126b237af7313c300c547852d5653a01908ceb6aa9),
  (0x3569656cd54a3dc30ae4cb10d257576ec691d0bd1b06c57f3d5e58d6a8219bb7, 0x480b9e11dd6da526450ac0bae251a0c6934e82d3162bfe13e5ebaebd94cda03a),
  (0x2763a387dfa394ebc5748baea677d806b636458c7f178d5500467bc58cce08b5, 0x58b36143620088a8f63ebce51558462ce7adda3e6f20d850a12b448a7d3cebb6),
  (0xadf0c7dc7c603d6c7463fd85222ef33b512331170fe948ce8a2cc3ca4d63c0ee, 0xd9a4c2809c80c34dbdaa84d68e59319cccaab359bf3804090ec32d3bfe7765e5),
  (0x5853e4c4363186ac068f237d16fb36646f5ae714ff0b9346a9d89488a059c142, 0x0c0bc0e56919240847b864fae14e7b1c2ec4a76681828876e2d87d2363c52f98),
  (0x462d7b0075f732278909984c66f2728083200f0bdf25e13ce4d7681db82e9f3e, 0x03466612d1aa702fab256ea35ef5435974c6e18c36ab1c34d90ba188f2651798),
  (0x98100a4fdb01614feeca111539ce22716fdfe0b56f072822624d60492ed22e91, 0xf70bfeec03884a7bc67732591d57d9ceb6f94d2ec87e9a47b6b0daa2a35c628f),
  (0x649c89ce5bfafe43c2e2594c30a92f8fa155cbe31da6a5c75fb35ccfed2bad01, 0xf3a8cfe389bc7d3d4b00b20b906014cf9b359611f32c50aed158667de9ff257a),
  (0x179c85db3db01994b7d9ad900574598180c5bfb4878873fa4ff23ffd248a7d06, 0x47795f4f95b2dda09e91cd3ba5e6a3184d82d052eadce5a8ba41b06261a6966c),
  (0x5f3425f6a98dd2915f0e2046e381d3b0009194abb29110fbecfd7c1fd55a897c, 0xeb629f90387ba42a397a247dd69d34170423446c4b083b7fbfa06687730d50da),
  (0xe94f7d346d8232781b1e8ae057477f580032940b946c6e181ee426ccd5cd79bf, 0xd73acbfe2cd9e6b5772ef6dec7f80c81c5254469f72b33a5c747cb96782ba21a),
  (0xcec684c3a42931dca1030d5babf825e0785c339aa06e9eba4075b5b149ee90d9, 0x033da338c1b7f86557c8b2c055f7835d45431d665ab43f2b42ab62c9c1586e63),
  (0x4b969974eba78bfd6b20afec715af2c70a624fa936c83906283c7513caa76097, 0x9bbff86e6dddfd2704819d515ded93d49b944e107baeca13220755ccd921d60e),
  (0xc8403902470343ad1a1baaa76d8805bda7496529bbd803a06b34413077adc612, 0x85efc7e941325cc2a875f5ce529d75e30b26d7fbb7d8c5b739f59f66175adff1),
  (0xabdbe6084fb7db2bff4cd0b228766127ffe7048453dc690921950b421ff6acd3, 0xd394077ef247fa364d78f592f7818ed826147d27f4645b5a837c92285e1109e8),
  (0x0dceb8db2b7eaba7edfbe268d5b1fa6aa78bfbaa136852780fb9c2d0488c171a, 0xd7d34194c3628c1343b7716bcc143a46efde7ae6a4449c96bf9e80899ae2b710),
  (0xd20ebe0d5c3fa443da1deb852f4318d4e20bc0ba1e5edf3f508cec1c3b3f64c9, 0xd731e383a2f54c2d99a5e23d82681c6261f1511c5e1a5f65370b4ea773241ea3),
  (0x88f77f34d0e5e542905a3201c67528b72e0ec469af45f9c02692f36e83445904, 0x7ef2f2269c0f0f8d5c27014b9bbec39e23b92eae22df3562f67a8d295864687c),
  (0xec3a318d306634b0912e8beda8c8acd95f9c3fc492f2467997359638546c4d8d, 0xfba1da5943465283b155bcd2dcafe1973db82f6f522113f280167f41c31cb264),
  (0xbb8a0feaee26c851c1286ff925c4d56c4f2e512ef8557c5fa0425b8eb212cf53, 0x1a556e3fea9595eb3df277a41d1936b17ee0c444e76265aac28f70d2e7d6107e),
  (0x5cee8449a7b730dd0deb0e4a46c814c131eea5bf07ef5be6258bbbf9e7305683, 0x25e8013ff14cf3f4c2cf6a6880e518caee759f879e27a6b4eab495c5a0182bde),
  (0xba3f0c4a7451ae636a84438514600044bb1ff3ca9556f36a8fc441407e8d7a14, 0x83927681026c2c084e9a5bc2a4b596ac01e0db86b1f2214bdfcac25b1f9af32a),
  (0xc13298306acf8ccc068212e3fd1eaf381bfeea57c7385b293ec832e77acaca28, 0xda44c6c600017626c5ab2632c79b7a015748060db661782ab909f2db2aac9e59),
  (0x305f725f648d02cdd66fe3b67ed78be199cac80de4299aaff26c00e8a7ea82f0, 0x063749945667474117ab562dbe5ffb3efa70533e7a6319ad33ed1bc4623fb21b),
  (0x4c2bab1b8add53b7cb9727eaa2d17c362100d5d3a8d063d169d44ed65c46aa8e, 0xa062499846fb7a8b6651f7017ce477f8778afcd3a837ebeaa084e90c15426704),
  (0xd40c4ccdbc6f9915026f8fe2671c39bc33fc23364189d9c7dc1e6828ed8a6e19, 0x04820109bbe4e832c40a04bd4f51ad9612c651a022adff2cafa135bbf80e75ca),
  (0x994a44a69b8335fa71cdf6537eceb50a59556621a9404f843667eb1a7f4c04cc, 0x0d1bc780872bdbf3b6658466da44bba2473c5680eed4350dd7faf819dbeb9b69),
  (0x0dbcb03ae539b413177aa4c02089a2336ed7e061ed58f5a7e535f175a1962f91, 0x6b60cfff35ace009dd47ff98814be9ee6472e5ef6806701ee3dc424ebb32e38e),
  (0x0763a43482fc568d95c376329182cb26039c4800f0518eedb8d3d9319ff91fe5, 0x90876a0140959b7092bf7c8f91230de0ac98b930824e8197707c04d5383e76ba),
  (0x95fb8394569b38c77da70b83c2c61e01380a0913089f73b9db6d96f305968b80, 0x296720440e8449708010a4a078424bf88f726bb98faeaf829a3c651280edfe2f)]

/-- precomp.rs, "1G..64G << 7". -/
def row1 : List (Nat × Nat) := [
  (0xad311f2c46d5a6173749bba4b3ad9db57ef2b6b9ac62ff5463c5cb817a2ad62a, 0xfa38d320ec008188f8aa266d75d6b138b46feaf3367834ffb77a8087c2ff3b6d),
  (0x7c3da195c0dd962c7e3d423e90f35a1550fbc6d8b9cba56d486d8ffa696946fc, 0x399d49eb914d5e53f6ce581ff52305aa0704b7c2889dfca5e673fdb03cfd5d8b),
  (0xee4b32b05946dbf6037e388db849140a733dbda78e7051f5380a496d6ec293cd, 0x4af675f239b3e6566df593742e3ac46e5001a7b0fdb0b2f3b1c4fda9cae368d1),
  (0x942370d2c21f42903e5323ed206eaff55b63827b361db1b544e3811039949296, 0x7dc61f91966201087c0b8f47ae6312f8192cc64b7239846df2caaf2ee0d985a1),
  (0x4e8aa3aabcf6d50231ee77ba188a9641d0e643df0ff8d3beb830fb5bc2da7de9, 0x0d296a147d579c4a7e3ced4152c3ea5ad18317f62dd6b220f9fb65329a49110f),
  (0x45d5bbfbdd33b4b48c0d4d05e5543aa59f8240cf3d0ed2a335d6a53eed4c3717, 0x34d5e0fcbc73f5a2403ff9f531f51ef2862ac6efc73b3ffdfa04cc73137fd28e),
  (0x8662dcbcea4327b051ed38b46ca6b26cea20ed61eac93d95f252682008913f4f, 0xa37f7912d51e82322210e7210b17daccbad2752f8e52dcda6daf295c725d2aaa),
  (0xada26e1a3ed1786389890b6c0edd6472d5ffa1d687be82cf4f7081e144cc3add, 0xf1c794b0b1902d1f05a7fe980a466e3ce6924cd92f6077fd276f271563483caa),
  (0x0adbb3f3eb59107c069a0ae0f597a740d931cfafcd278298e521368882a8042c, 0x7577c11e11e271e21631cc0d8a03f2c5e663a8b511b48e78983e951e5eaa8eb8),
  (0x7a786d622ec4a014819a6145c68eac802990c59b190eb4f833b2385c08369a90, 0xdb2ce9e355aa0fbb209d2742dba4f56531a217815aba2d3033faadbe20ac3a8d),
  (0x5c56feaff593cbecf6e6949c263720f0e81dce17338796388cef334b168984df, 0xa233e35e544c9868bcf01b614c9a8a7874e241172eccb3148bff5601fde58c84),
  (0x8f3a8f9cfd89699e7ba1ac41d628a9151b5ee4cb1d81b146b3156bf38bd7aff1, 0xd255f53a4947b435e51e6b214d10a8371d391c95a92e621f7329b9c9a0748be7),
  (0xff627438d93668088b47a334e93a01c0c14f27afa86938a207669e04f1788ee3, 0x5c1c33bb4fdf72fdc23eb80b4cf972e83d9a5542d6e9b9b37a0985d8ca2a5965),
  (0x28c889de056a1e60e3c7c924e86d4c80f8048a8fee4c5d900c4a58d474a86108, 0xf1c24022186b06f28774286280ac748ae8c48e9837e1034757e2662eb214a040),
  (0xb359ed618a7b76ec4fbad78255c4ec23409aeb71fceac957ac2dd4c35f74040a, 0x72f1d4deed2dbc0ee2575a59fc705a59e21e8d7f4b912de312744926ed6f4a60),
  (0x3c5fe1302f76ed45d0f399afe4dd640bbff88cb3cdbe55093d2b24b9eb7926b8, 0xfdaf6b20ec66890fd5bd0bc7d79ce5f37b5af3183151b62d6f3562f43764fb3d),
  (0xf8cc13d5a3a7bc85b8734f9a3f99c6ab50b259c2e5f9cb8f735c67ec6063540c, 0x7f8efeb1582f897fbd87045e681345fefe5364d44ec12a5480c1b305c5217659),
  (0x5e583c56a4403cc60c5b34cf49859b98db0cea9d539b9fb0e8cbf1e5d5923359, 0x7b4d4d58db8260c847e7a05805105b8bc93fbc7e6e52178711fc1a2dd48185b7),
  (0xb3768f82636ca17634ef3a9e13f7fdfc8e844a9a7bdae56de33930b046eb842a, 0x151b6eefb3555ff1d537943754945fcd414dc3a1a0c7cddc2821f4e04e09e61c),
  (0x1e19084ba6b104427c3388d2e29604ab39ff8155dfb64701b31bd6136339c083, 0x9222840b7d91d95969d023fb47daf9f6896933854a5dfb3017cf54c0eccd47ef),
  (0x5c5d75f6509c104fd651e827ca63c5810b7dd91d379bd45f439108f5803bac62, 0xf036b9b1642692ac95374beea517b03120faa7bfd98454be7d5fc7381f2dc308),
  (0xe04884eb08ce811cfc8c1d5cefb42ee0b7e2353e49d05295c510610939842194, 0x713520c28d33cf97120921bbc4c556465b0ac162a995c241f1f75d817419f40e),
  (0x224a8434ce3a2a5f251f0b7f9ba2e78b6cec871d2ddd0f5ab4a65a5ce98c5100, 0xd693682ffcb9b98f25ae5fa0b1bb5cdc6a22bedc48545ec026827f6125f5c46f),
  (0xf7c2eec02a8c4f48f88497b3c0dfdd61f14b7d1773a0767832027fe891e5d7d3, 0xa0472bea653a41841c03b34563878572c013a2401825b948aa5573f43756e621),
  (0x4e87acdc69b6527f00a648cb8fffa59134096d25f51e54f6f4222e270ac69a80, 0x74a56cd81fc7e369aa96c9a8870ff719188089e450ddcf520575e037e285ccb4),
  (0xe421cc51e7d57887a6ef6de524818e180bbbb2c83660ecfd41d04ee21726931a, 0x5359b3dbf0f113b69db1b684439b63f716a475d3b1cdd682f127d208bea87be6),
  (0xdfc3a59758d11eef10775cad5017e7d21fdf8f44dd383901dfccf1de8bf06e31, 0x61b4f11de00aaab9b5ad7bae1b4f8d73ee6ed6cc284005496ec9c8a0b1ecff10),
  (0x1f3d4789570aae8c159461b437a1e72388ae67714288b60f7b32d69bd4eff2d7, 0x6794b13ac0dae45f738f3641e1541dac35fbda78f635e278869118c07f9871da),
  (0xd23a9f80a1785a040d2d4c8eef22767127c53729c68540fd065064ac09cc0917, 0xa40f1c67419b8084082d5a290b55bf5cfa09ad0174a1acad98c5952852650359),
  (0xa2383e47b2f64723ebd63f7421b153ed4baf1f2f8825c3a53a5c752edcc18770, 0x8b2dfd7bc06bb5e9af7267c94f6be9f156cb44ec03c83ffde7bf620a2646d19a),
  (0x37bdb99d4408693c22dac29dff435932eacb11c80d53c5e2b87072f2a672c5c7, 0x726693bd190575f2fbdc6b88ff577ce33535d512447ece24f6e62fb62899c20f),
  (0x4a20ed2a41fb81da728f7ce4795b95801d8b6001f5eeaacf6772b0e5ab4b35a2, 0x3a241426eb82f4f9460fd2640c2d97fd3ed7ddcca7ff50ad9f685cd44fec01e6),
  (0x87fd26ae04f5ee3903856cbab7291426b2b50d3bf22cc25417d1df2c6a8ea820, 0x666f7ffa160f9a09a5dfc2690212e9855312180406820fd69cb696cc02bee4ba),
  (0xa6c3200efc9cd3bc798c63555ddb0786365dede4ba7730a3c503cd33bccd9617, 0x0a57354a160e1bf611d95375f70b375199a4e25b5555a1c1060ffb2ce5e35efd),
  (0x16a6f79261ee14ec1cd300b38692ed9607a834c42e53022becb3ae4bf8e4b065, 0xcea49b3c7130c2f12cfb97c100a7b3ecfbcdfcfe869f3e148f1063c66a8649ed),
  (0x80ab7b48b1741a0984b6ddd30391e9e94b53d52e8182a0c1462d044fe9d96488, 0xc995d53d3674a33193cc5d5fd49c5b928dfc1ddb1a64671eec0e15d427d3317f),
  (0x0c32fbd2b80d68da1d025932fbc996902278a0ccedb06830302e41ec090090ae, 0x1cf307bd880ba4d7c6b8a5638d774b3aae0ba1391bef68a0d79146daf341a6c1),
  (0xc3b88a9d193919eb3d68aebc85c6d05ea9f97b3b8888c3bec033bdc719803511, 0x5bd71587cfeaa91afc48437c6e6d57f37506bc7c07a746c12d300748c48b0ee3),
  (0x75c8485a2751759b109ecd62758d2d43d0b946db2719226da4ed0408c1bc5225, 0x4df3874c750f0fa8c062d300a167fcd74fa61a1e79c10c3db0b75f499ce4177a),
  (0x18d15867146d9272af5717117429c8d2f84371348d87631a29ae2cf983dfedc9, 0xaa5956ba3d4915255ef7791c21b0f4b2c55eb856c479ab8283053ecf69769bb7),
  (0xe45c51ef710e727a43b60ab3bf1d9d89f27168bbe52a5ad3407a96c29fe20eba, 0x0a9db9579c55dc320ead8335910358958dc6407c2557a159dfca5276099b4221),
  (0x76a524332fa647b46dd921a4c56ea28f13a619c03f778cdbe40736d3df61bc76, 0x3ac045dfe63b265f9905e26162df8453ff4a1a72bac7dc0123591891ac5bdc5d),
  (0x8fb4f9a355e96120d71a27823ae311898ec269cc837b625a8a3f341bad53dba7, 0x91da22fba0e7ddb11c4d3b9eecc6267923224f575d442a9b804af823ff9875cf),
  (0xc364ebbe6422701ced8c98f03044e3579710d3b65e376d17a370324d6c04a661, 0x0aa7641d844220a780c6e0ad55a25548d55644b9cea826c3347f5d517733d61c),
  (0x1b6066dd28d8cfb210b515d8cc3e02739dfa6507de4b40431438ec8131810660, 0xbbf773f7544810845fe5af19d57607d3425d4bdfa21c1ff4d3b045919c9efebd),
  (0xeed26d80a03096dd2cf423fc00e420cad9ad1de3634cc5468435bd6994b03ed1, 0xeff2db2626ca2715e5925fd77296c729f47f569d960622f7d7f60be7a4db09d2),
  (0xb187d664ccdf352e14616d79c32068e153da47868ff4de93a6fcd014b913e759, 0x6e8d345f6482bdfac8e3bdd8700c0a848170e9437daa1b26f7afb6501dc90b59),
  (0xe4b7839c4716a663263984030dd50942d3baf14c6796068184cfbfa1c5c5ea50, 0x8d933552953e06075295f3f159acfeec5cd0f4d4622aa7ced5f1f794e7de6dc0),
  (0x4be924c10cf7bb72d4297e704ff425a9dc467e622b5f290cc7db8ec5776c5722, 0x00c9ca4e9a8c77a873a0b0647a305ac58bf8a8e3a705c9920d5dc5aea1892131),
  (0xebc2ffafd4e300d7a1b524ae914a69a963131602857344855dfee80f83774bdd, 0xc09015dde1bc12533574fc57a4bc580a71e6161f21653b5052c93db77cfa46a5),
  (0x6f2b9ff9edbdafb1eeb7d47fd6fa07ed4072d8e8f3a15d044b7b47b2d174d7aa, 0xa1914e9b0be2a5ce4d7a04100ea2d0717a96e6bff06c6c1318c516153760fe8a),
  (0x15b20d1afdbb3efe6c0d7f7f31ae88dd1197ecc32abb2b135726e357d8a3c5cf, 0x899ea2385188b32abca695877855d8152277c969a7dc9747cd06aa2670584039),
  (0x4875384b07e6905b7f0d1bc819f6dbc5c7efbb119b5c18da37d9228b760c1c9d, 0xa912a262cf43de26708406737a231952b0ce40fbc2905de0c7c50baa3ba8cd86),
  (0x60049c559945862152a63a50d62c269f746f528526fc0ab49c38ddcceb5b76c1, 0xbd3fe2ed9a449fe0eb1317a88701f4696bd99043917d5cf3e7f48f823c2f7c9e),
  (0xaff4f967c6b82228e48198b5cdff36f79ee3c36c3e7ea5de421e79ca12ef3d36, 0x5a347a48550dbf4d40680c8b1fae026a45699b23032e7dfa15e19dd0c47adb7e),
  (0x8e6e24889e9c9bfb838752be0e80f500d94f7b182bbb4381e652533b3cef0d7d, 0x2d016ec16037c407c917e2397151ade1866c49d838531ad9c975169716caca6a),
  (0x0e969937dcb572ebcc54c3471cc98e0d835f6280e2ed4748a407ccc900eac3f9, 0xf89014ae4d9bb64f47aa689b35502caba606ae75373c46611b16c8e88f30c9cb),
  (0xeb9912375f498a455fc0601453cec3a301f95aa3296ffe5c202f6a9c31c71f7b, 0x7c8b467f9dd11d458a8fe81c3bd44e69c6ac62810b564a19ae9a935e5d91ba87),
  (0xbe5d49ff19f0a1311aca3331887ff0e5aeecb3bdc5b75fbcf772251fea5b8e69, 0x1f13f5a81dfc76638f40f31af7abbd94dbaa12e820e19980582c13aae5c8646f),
  (0x2608b69803e805894b67d6d7751370c8362560025e6f0f425d81f1eeaceb4fc0, 0xb209f11337f1dc76192a90c21fd0e1c2a6943d3940309212cfc0d2fc05268301),
  (0xa3ffdde31a7ce2e5d009c116b81e8c6fcbdb6730219d639eefcc5e0697bf1298, 0x5a3d7005714516fdd98dc71b66ee0751836d500f88df85eec53fbaaaa914d3ba),
  (0xbda3ce9e00cefb3ec8cafe65f9d7eb0c35cd2e680455a46d21d3634d39eedbba, 0x732fd309a84600e3a92b2b018c7548df01572ee47bcb8773ddc17a602c9cf7a4),
  (0x2a4544a9da25dca0fb2068526824e6149acafd36fede3c6ce22109c716543a40, 0x33a83aff940e2eb4ec667b1a90f13b27281b7be9287535452598526291d60b06),
  (0xb58ae74ef6f8308527f3a83b7aa2cda40c3357a35bd3a18280009862d5d721d5, 0xe7312ec00ae1e24e4bdccc41f996c4d8de286051f43d6c5b2a911a812e6dad6b)]

/-- precomp.rs, "1G..64G << 14". -/
def row2 : List (Nat × Nat) := [
  (0x7161957d21d9555148e3ee41684a2f6d4d3e24db771c52f8f8d112e76e6485b3, 0x3aefa7aeaee8cc38f6254b633166cc73bf3fa8822e50e16419631283cdb12a6c),
  (0x23f637719b095825136e64a0958482ef26543b23fde19fc079b0fe623b36f9fd, 0x5fb89d79003dc12a86a0e8bdf3081dd55ea6aac6335aac0b14cfd596b6a1142e),
  (0x686584c949ae46991c12bc5bc1dea34e0bd9ea40110eec35f615c33af72e34d4, 0xf57594c6371c78b69e94a4aef2737f894609561a4e5c756213ad95d38c97b942),
  (0x4564bade47ac62191fa4efa220284e7ae00e7f9dbd495d9e0f0165fce3779ee3, 0x47f7ccb11e94b415e95f55ae3d684b9f4f5725fba71e9adf90e6312ac4708e8e),
  (0x03a7c1713c9f6c6da3510f696584dae0f0d13133bdf4a0127322851b8d946581, 0x158b14940b918c0ff83cc5c70be17ddaca1ba422858233345be97f38e475381a),
  (0x37c64e36aa4bb3f71f1b9e48d924fd5669c908c3bbcd6c18da3a77e5522e6b69, 0x1fb08f0846fad15184bc1e8456cd16dfba75c8bc0193f7a05a4fdbdfee478d7d),
  (0x27560abc83aba0e3d272cfba017f2a6aa331d4bf5eab83af8a7cabf9842e9f30, 0x03b77509e6333514803d691db5fdf6d025c6aea26b9f50f594b833870e3a6b75),
  (0x3dbde4ac44af2922022295eb8533316c3604dc600cfd61423617890361a341c1, 0x6f0d1f3040ef730b05002160203c21ca58896805d14f4fa1898afc5d1c7eef69),
  (0x56f04d311bf65ad879085ecc7d48f12375a4ab95374d079d8e8c44d4196224f8, 0x4000ef9ff11380d176008fc8084fd06b73ee1742f9612c69e220bf1cbda602b2),
  (0x899b055c92c5fc41e1fe114ec9e874e83eee129c292f74e548201b4b12cfe297, 0x85132b2adc949c636fd3fd8fd333f86382f09efe78963cc94e477a643a39c8cf),
  (0xbb4afef88e9eb40fe4f74f55ba896da673bec06fd2c7372b7e06a3ab516eb17b, 0xff54befda07f44408bbaa8de026baa5a02bda4b4ef29300b2d75bec8e61d66b0),
  (0x7c9a9d20ec2687d5b9937a4b63879697ec51caa94fb74a72bd9b8b1dbe7a2af3, 0x50393755fcb6ff2a387bd0228142161e8abcf412e90c69001773e44f6ef5f014),
  (0xf1e274dd63e65faf991a35bd431f7ac153cf64827d53106c9813fd56ed6def63, 0x89fdddc0ae53f8feb698b9fd93a420e0411a426b7c256981f63ffa3c44cc7880),
  (0xa88c68b84023890da49f53417a029cf2205fee425cfca031766e072232398baa, 0x2e9e194104e38a88e0816f8529aba92f9ed364ad0eb384f4bc2750417337aaa8),
  (0x09d84aaed6cba5c650628c092307f9b135d1fae597ed98d857eef44a3dafd2d5, 0x7286418c7fd7aa51dfe11bb43d78ac012dea57a9afe6cb0367071bc788aaa691),
  (0xd68835039a3eab3fea1285a8bb4f012d8ec86167adeb838ffabf770977f7195a, 0x8f5c2ee5b6739a530cdffe12bd223ea4a96e4b7613ffe95eee5d24f8309004c2),
  (0xb270f0d348606d8e53d46a909536d903fa131c5272413a6c5cb4aaa5dd968198, 0x5c59900e4605945db3ba8cb40ab5efd0088254b71a86caef518c7564a053a3bc),
  (0xc58215b07c1e5a369611ff5c3aa9552940960f36932a65deecace1dda1887395, 0x0dd036eea33ecf82c7605e049cd95662b406856bf590dfb8d48c9b58f0e1a524),
  (0xe60caadc5e3d44ee4e1f72c676dc8eeff09d24ea4a80172ea50171acc33156b3, 0x618427c222e8c94e6e08f95b266feec060908a1c97788d26006ef8a6979b1d8f),
  (0xf6877b2797a1c59082d11be32d8a52a0cd9bc368fa4063373d61333959145a65, 0x840fa5a07945511b622a7de774990e5f2a4fd1d8de090249837a819bf5cbdb25),
  (0x7251fe7fe4ecc8237c8035207542e46d70df8c6417f3d0a630b974be6558842d, 0x8d97a90592defc9153e5d9b5dbcb1d4e11bb0934f0045d71e59134cb5e9aac9a),
  (0x777708c5f0595067eeeb510c1eb6ae86e132bd2407472273fe2893277946d3f9, 0x8ac06c36da1ea530e466c2586b85d6d92c61095cbbf9305e18e2c8cd1297029e),
  (0x3e2347ff84ca830365a4898facc7228de4a9c88507f89606a365dc39a1304668, 0x8ff87566891d3d7a6908bef87e6a44d32fac257d672a71cda5f6fb77ea7d23a3),
  (0xb0d8b2da36f1e1cb07b1f8fc669c145a6438d2462615b5e7e58e90b36b0cf82e, 0x2afa8c8da0a486090a3e0f56d1147d473dbb18d5f93d997654d5dadbd9184c4d),
  (0x8ad8848a308741e326f4947e3e477b00898f427eeea0ed90275353e8bc36742c, 0x474a2d9a3841d6ecc1fa6f664ab9a9e45e3e05a99ba17ba26c703c38d74a2a46),
  (0x3df86536110ed4af8737650e20d4c08314bcf72aa74cbb43871239ad653ae326, 0x7ccfe3ccf01167b6cf81bda31ad38468688cb00dabd5d538d2d86fe7b53ca555),
  (0x174a1d2d0baf97c4f93b974f30d45a14557e1f1a298bbb79cf4f47e06c4c1fe6, 0x975797c9a20a71535b0aa7b71c0f4173d8940991ee68b2257a003b30c51fbf53),
  (0xbdfe0d8f7c476cf89d60ec3d8d2dc4edd7222e6a2e341c9926e08c07e3533d77, 0xfeb874eb4a7f1b108489941e47fb8d8ca9ea9df686a8551f1fe59ab61d056605),
  (0xd5f49fae795f082245d8fe4737c031d4201ad34bdbf61864fe5fea867ee0d98f, 0x8a24911d7662db87754e105449d769872e69d9c1730ddd92db0fb291c7f4a40c),
  (0x0d6de7bd3babb11f172bbd656417231ee852d1a8f66a8ad161fc181060a71676, 0x97f0f334796e83ba78e54ed0340769501c5875479bd99cc36fde6f88c8e347f8),
  (0xdb3fe0f8ff1743d8375300403cb09a79bd5f51b060b84917e4dbe1ce4924867a, 0x6ca8b8c00c9fb234563be0dbba7b9291fa26216923412fbfed7894d8556fa9db),
  (0x622a0492df99333e61ae291ec7e62ec4c21486a065303da1ed406aa9bd763802, 0xd540cb1a469f671f35c35a1208be74ecdc2ed3bc6c01aedb7fd80c9dbb7a8ee0),
  (0xa736f92877bd0d947e693d796f239db48561fb9c2d090f43d16ced4ecf84f6c7, 0x1c70cb294decb08aa5dfbbaa7a6a878eda17754356dc11b307b4d9292c1950ee),
  (0x070c1c8ef6873adf5ff8e89a36b78642a8eba2b8854dcc6dfba28c8b6f0f7c50, 0x979d74c2a9e917f72621a39c6ad93b0bfb78318f0d414129bbd3c3716484d2e4),
  (0x6667ac0cc91c8b13b94896e0b8ae86fd4d78954abee624d4fc19564761fb0428, 0xfac4bacde687ce85c69b4089b3ba8aa7fbadf8b7a00101379f18051243bcf832),
  (0x358566c3db1d31c9d238238f340dd55351f4c5b62760b3909164088d977eab40, 0x59e5f0b775e01331ae549a5bd6debff0f31435fcdaff6b063a5ad69e5068f5ff),
  (0x1943b3af4900a14f55f4a48f609f66aa96018c2e4db79b505d492fb898559acf, 0xbec75725ff5d1b7776a35afa3b98404cb2a446844c20f7c5c22496df15a40d39),
  (0x1213754eddd6ae173c20e3e9d238c8ab27e95bb2f724b6f2b67aa163bea06444, 0x2cc970d301bb7a762eb3adf4d0ac29326679c82effc095c28c431020716e0f74),
  (0xff8396332ab277224528cfcbb40a8bd7545c616b2b6b23cc70c71f2f740f0e66, 0x0fcb8983b3bc84bac8c310e728d84519d314d4a02b63e33b049127d9025ac99a),
  (0xcfd58ff0e759718cf7e181aa54dfdba3501814f4b44c2e0b2cc5226138634818, 0x4db6eef8e40bc85529c197e250e5f9aa57bd478ec50bdad8f90cdb14d3b507a8),
  (0xdde92571ca56b793ecfbb204077f49f9c71cc96381269d732cc8f21ad1fc0654, 0x85f44d1e1337af078dce92f4a140a800e6c19d3f924de3bd9abed6a3f97ad8f7),
  (0xb332b6db9add676b336a8fb852735f7da1b5e49ff5df97495953c08b09d64c52, 0x7f0bc5a0c2a2696b16b43b9cd8cd52bd09788752dbd5cc55558b88a0b4511aa4),
  (0x09ff29ad5b49653f08ec73d96cbfca159ce107543a83e79e146e12d4c11f61ef, 0x18b5fef453f37e80d1aabd0817598ce4ebf9eb3bee80a4f2e31b72bde7da946e),
  (0xa38c534def20d760a36e4c91fa9357263580a1b51d373114d5d5cdd35958cd79, 0xe3cc3e50e968f05d4f06a7a8857f9920e5bb40bdbd78177f7088e40a2ff5845b),
  (0x58ec52c1d4b5a71a41110530041951ab5206f76faec7f87c1d68b7fee5682d26, 0xeae060d46d8aab1427ee75be618895abf411951fba82d0d5f3488f990f75cf9a),
  (0x5bd450ef8491c9bd242ec32afe0550811f3e391b259636499ae1df737fb54dc2, 0xe890e3081f24c523362e776bab3ce75ced7e19283a0550d5367efc67981eb389),
  (0x0d7f7a52e2f86cfa8f2ccc4c2b2375c48b8e11f58bba6d92b961b682feccef76, 0xde2b5b0dddec8c502234c6e3244e6a002d8d246b5451f934fd94d30a9efe5633),
  (0x87d2501c440c4a9fb259371771bf3f7a6f72407160357b052ce53c5abf776f5b, 0x5a4228cb889837ef4155a6ce22facddbb7bf7cc821624c32440552e187b05340),
  (0x7632d1848bf19be67562224403c0eb96a233687ec2daa10eef87d6d6fd4fd671, 0xf381366acfe5120731ccde6adafe3f183a3e6e13c00931f105d0f8e940735ff4),
  (0x334d89dcef808043412397c00353b11462f9d6f87529f18c24c222a960167d92, 0x67d6912f105d4391fb8b4288c8be74c0cec8e9375cf92ba0d9ec63ba2a4383ce),
  (0x284ec70d4ec6d545b68aa003972de59436aae2ef3a4e02da7b996c461b913149, 0xe1596fa5f5bf33c5be0f00b5b4482dff69c5d5d6fe114e92f3d2b2d061391d54),
  (0x98ec05f30d37bfe1a282da4cfccd8471944938b2fdcadeb710595b5696a71cba, 0x712ecd8b16a15f71d0cd3b741b21dec12d69144421bdf79be171ce1b0698304a),
  (0x9176fbab1392ae0a21c449374a3e42e102ec9692f9527c188d4c00a700fd56e1, 0x7e116c30ef60aa3af91df7b907b582c0b4d7aae9f1de491c8726f1ba44b7b618),
  (0x48553ab9d6d70f95fe33b2d3f9738f7fb15b6fe24df7adf099270f81466265d7, 0x81bd3394052bde550a1be4492e40478f795ac38dbdc0bbee2cc72ac8c21e94db),
  (0xacf9b00bbb2c9b21947bbddb4d010fc1017a99cf904177cc63c8dbe956b3c4f2, 0xa3e8b68959c2cf4406d9f4aa67d541a21a4cbe08ac7d756f2970bc8d47173611),
  (0xa10dfae0ba02ce067edc07204478ca67c604f1657ad35deaaad066da4d88f1dd, 0x74f544ea51744c9dbf9ed77b77c8a68c994b2292af3f8f48eceb1c76af36f4e4),
  (0x22b76b18290d1a521e332be51aa7865f4ef2d2b48a9885e482d05bb98113a757, 0x0def0c94154b73bf5959ddcd841ed9479d861896a3f22840308a231044351683),
  (0x9f5796a50247a3bde699268ef9dccf5f539bfb023a277c32f01054174c7c15e0, 0xf4a8ce6c498b7fe66ef0aabcdc8a5a91c825c1e57a30196b8b839de84f157269),
  (0xda6c9d06ae1b26580341a070d76cb01183488e9bf6b239581cce35a770cbac78, 0x3d2b810017856bab069331176f563086994ca02c52fb9fd1b701fb30dd648c52),
  (0x36c4fcdcfc1bc6566e296f874b8517b4658ab875a99e61c7e89f48c85963a46e, 0x5adbe47eda4480de20c91e81fdd96cde9fe95f5762418945de5227a1a3906def),
  (0x03d6b078556b1984f44f6b57e51d067298583d4bf0ecc7bda009370f396de2b6, 0xec93db7fff28187c0dba646151ec20a99b3a343415687b0927dbdd93b0b64912),
  (0x8a22cd41243fa156eba11f4fe12506032514f2f911ccd78e00ff8c2466e48bdd, 0xc16284b50e0227dd5235aee2a525980978c298598b39783fa4e58df4b283e4c6),
  (0xc1d36873fa608d36236ea68af9c546f86d4b8a6bd2123fcaa5f579161338830d, 0xcf1ebe4db3d572e0665c1728e8ad3fb5d4d9c2218fb080afcd76e4958d436d13),
  (0x5e6e21354bd012f3593a15cfb9548c9b267e4ea1b9dc7035a7a8746a584c5e20, 0x6fef4e61b9b962cb63990a6f345efb868af84d04b5c241dcdf31cc6a8c8f936e)]

/-- precomp.rs, "1G..64G << 21". -/
def row3 : List (Nat × Nat) := [
  (0x85c7888037eee82940eb353bfab4f7ac131260db131cf5c6f6368f0925722608, 0xb81d1c0f0295e0ca35e8c83fa14e6f405bff75cbf5c3c5a84c1581ffc3bdf24e),
  (0x82b79afe98bea5dbc823f529ad03240be89b6f3c33ab590efcde7cc8f43a730f, 0x3b662498b3203f4c1fc74a144a28a8580c590adb60c591f3568f2856962fe5de),
  (0x2414582ccf43cf1a288f2f08cb953b50a2db3acdac3cca0b91e3cf0d6c39765a, 0xa672303acf82e15fd81cd5ec6532f5d554c79f02729aa0428dec8bbc60eee9a8),
  (0x14ff052f4418b08e303fdb9fcb750cd3cd8ad2dcbc5fc79f376aafa8719c0563, 0x86ad71cfa354d837f43bf0f2d3f25b987ebdf0f8144ed509f75084cf3e2d6520),
  (0x85c0e37a66623d68315dd23a539094c1dfd3ab5b5d824758b827fe9226f43572, 0x635b9485140ad453a1ebb3c826b1ff7e616a3396df0d36b5575c79727be19ae0),
  (0x95de4f49ab8c25e4c91cf0a515ac326a4702850e3a96dac692bf3cdada430c0b, 0xe17cb3186ead97a6d43e583ce1fac5ca24e45464087b3881b01bad09e265c17c),
  (0x8819dd95d1773f8982917844f26cd99c33cfc02d54c2b73f6cc3924374dcec46, 0x4eb357eae75e8e507fa52988bff1f5af8e0cf365f6f01c3409572aa60871f427),
  (0xff5d55f3611824edab471996cc81ecb0d7325cff45c8c7ead9d0c8c4868af75d, 0x894ad8a6c8e2a0822d5335bff94bb4955085c4c5722038c6be3145411977a0ee),
  (0x3f311e0e6c91fe10beeb355a9f17cf34f4a9fc89049b8c4e5c3e2341ada35438, 0x927ce89acdba143a1b2d978988c53bee257bdcc13e8ce9a9c2d2003892ab9891),
  (0x8cdb6e7808f5f2e8503e04b34897d16f5c889f8a50d43783b0a32cca523db280, 0x4076d41ee6f9840af948d4d5ea851200d8874e5248211d606ab91cf0179c8e74),
  (0x88a790b1a79e6346e55f6f78f90631a079a448fd30685e5ec20e263c47b517ea, 0xf44cc5aebea3ce7ba6645c235c95752654f92fd441491bb962160c7d80969fe8),
  (0x96c0d50c41bc97a7fe5a9ca957d03ecbc731ad7a303f29d3f76283278b1e68b7, 0x8bf64f7cae545cb37892c7c35d2c208dfdd781d83d9967efc4669fe79b4f7f24),
  (0xa07a3c1c4e3e3cf91fa6f4be6ab83ec7f4c85ee9c73d30ccc01f862c467be912, 0x32c133aa9224ef521aa00b94fe08bf5b30e2c2b3000d4c3e87f8ef450c00beb3),
  (0xf894a645378b135f495aaff7cdc5ebc668a9e06958e6f54438df16bb32e5685d, 0x47ec2caed693be2e2eec273ce97861baeced201e58f7179df316350a09e27ecf),
  (0xd7eca659c177dc7d17de815db298a979e4f47d0bbe5a5755fa4c97c4f68367ce, 0x3b6873efa24aa40f2cf31d2860858a334cb2aad4fb34d3c520fdbb7149ded0a3),
  (0x3660106867b63142f9a968daeec5f25d2d0366dded4c74a3540234b22c11bb37, 0x4b5f7e89fe62aee4e27514047768b1eea8f74f090c84294207cd6d2c68d7b6d4),
  (0x78fc242afbdb78e0ea5f4f06469e1f17a1f28e4edd1c8bc7c6a7717789070d26, 0xb42c485e12ff1864cc5bdb91bde5ae35b6b7a0fd1535921ec9c7c5928b0588f1),
  (0x3752e5377c5c078d23f48b37c0462d3ade9d469ba17b1024a1113e13dbab98aa, 0xe617ba14f02891ab8b5bb76cf22001b5f013aea780fba279e3a86add15544eb9),
  (0x6d7158f222cbf1bcc78f8598bf07a74c5ce1f194ae51cb19d39182a6936219d3, 0xd8beb35ddf05d9405fe25c36a0239b9b35fba6302d11275d3b846b21e300ce18),
  (0x926997488fcd8e3d6d95fa5d821389a30641c3646da320ea4db02bb01f7e320d, 0x4b92552f9fd24821bb837e35118b17f867fcb841d933762b316fef17ceb6c143),
  (0x099bdc6fbddbee4d8dc631be5802f7161cf0b0e4e579311bae6bc70e46aca793, 0x1ce184739e229b2db9876d4b91c4f408f74d505a72d63df2cc352bb20caf8b05),
  (0x04d831d99336c6d86325236e609e67dc850fbcb6dee84b184950759783abdb4a, 0xaca16d8fad62c3b78004c17524f5f31ee425f8ce4746e2468deaae3bfa12d45d),
  (0x76be8732b2ea0006c33c06ecda477dacf1235e5ded0e12c10dc15a6a9152f934, 0x03ee10d177827a2031a756f8cab22d153c524553a614260dcf3f78310c0cd313),
  (0x279739f709f5f84a70d5eb582f6990102a653b69638ae318d1e059b21994ef20, 0xab40cff077d48f9b32d8a9dca1dbfb2dfdfdf14d203c37eb5da4663c8b799336),
  (0xb90bdcfc131dfdf940af3753bdba9df0f9a810ef9f78845fc018b383d20b42d5, 0xde248f77fb2dfbe3a51b80f30dc14401c823f2116af12a8818720591f01ab782),
  (0xd5b53adca09b84bb32fd86d1de85402473997c9cd4dcd221ef5a44e50cafe751, 0x2e25f2cdfce2b32f5d4472ff05dde8b1406bd1c874b32c84008d7a11dcedd8d1),
  (0xea70e6be48a753970b4d43a5c72df2ad4455fcf62b98b267bec0dd5e29dfc254, 0x636bb64536ec3eec70fb7dba7be5ac83f410d2dd9e37f68f2aad61695820f3bf),
  (0x0fa724e360134da7483351d74109db9abc87a3e68d63c37327104ea39754e21c, 0x96c5db92b766a92b5942758ce26929a62dd0cf1306aceead9ff44c29b0720b16),
  (0x074764ddafef92db7a68b37acb86075bd3f227441f80d032cec7d4c05f18395e, 0x3f0b4e7f82c587b3aeeec2a47da48157c580c850b9756460ded1e9507bc7f389),
  (0x9f112361dadaa124d9e1d216f1508fa95717bd736974e34e231c6de8a9f19c53, 0x276fcfee9cee7431e3d82fc72297c2584dd8f0d5ac63406980145e31823b7348),
  (0xe137451773d0ef0b03a32ab138e4b87e4f668fd5de3294318eb61b5e2bc0aea9, 0xa10649b9f1638460acf207852ea96dd1c3bdf42e68e78a571a46f7e6853ac983),
  (0x4984d8c02be8d0fc5251d75956766f450ff0ae86da9d1869f2369f0b879fbbed, 0x32c0087c51d0d251ab9828c5d26c50f329bd54a03a1a1c497ecc95a6d21008f0),
  (0x0eda0108a3d8b1491b1bd5989db1fdcdcd94d947557ca2059bac3ce60c1cdb26, 0x1105f6c2c2f6c62edeffb41ac92e05a4c2f037e6e7192b339506661056152fcc),
  (0xd13c1b9d2ab21292f407a94238a278e9cce861633f3adc4068e735008733913c, 0x358c5a3c58937cb63830ff304b3a11f18887dc48f1a4c1b493ed7ec71c74cf5c),
  (0x9c23f6bcf34c0a5d90ad333738be6ead40e939773b798f79027dc40489022829, 0x24233cffa0a8c96809c8ef4b7825d93a60fcfb491949d3ddd1711a35fbffd8bb),
  (0x46fe382d4dc61280d6b9ba763d8bd087ebb6bf3ee7544d7c67ade46ce6d982af, 0x6a247e56f337ceac0709a77cce1c4300ab381331b8f228febd39a7e8b5bdbd75),
  (0xcdf2688d8e1991f86decfd1bea919e049dfdca74c8a7c3058f34f21b636288be, 0xe976ef56a0bf01ae57f834c50c24f8f4d985df4b0b58d010e607df44d0f8a67e),
  (0x2b539e24223debedd2f1b5d65e6bd5bc351027aa734c0a13536395aca1c32373, 0x0bea3fa5d6dda5ee5f1aed2f7b54c7402a83381d661dcf65d4994cec0eaa1d71),
  (0x7aad621c5b775257fc500e2e383b7d2a8eb9bbf3c0a443dd9d4fb68436cc6134, 0x73e95ca56ee0cc2dbf9531b9499758eee820c2ce07562d6569284d740a8f7cc0),
  (0x575553bb7a2dddc7ec516da7f176b005df55e76b684e0750f61790abfbaf50a5, 0x61b911496495ff28e846442aaf3e5d35315f3ffc4d55c25137c87ca3553afa73),
  (0xb6710053320d6e1e24bf9adcd0a37d591df4da1f18fc2cea23cc95d3fa326dc3, 0x4ea109e4280b5a5ba02d8514d68dbc3acc7ce042a06445af96f9667e618344d1),
  (0x561e97bee6ad15827feb914502b765d14ada59376aa56bfa5741a7acb40961bf, 0xd83dfe20ac19e8e0b8e7e6aa59612d200c2659edb546f468bbc4a5b6da3982f5),
  (0x39707137cae498ed21e8f9a635f5dcdb6106a8bfb38a41c28530c45fb835398c, 0xdc5926d609a194a7d043c3655f61c0c29f14b58fab2537a070c23834d8249f00),
  (0xe59b0459ff32d2412e58e79cee7f6e86d07a63effba46426ddec03398e77738a, 0x9115fba28f9d98850310a4e3b4a3831397939ac8eaff5acec5ec84e520fa0338),
  (0x597bb5300e24e1b8d42a279c4cfe502266be38a2ce19c0e28dd710c25fadf8c3, 0x98e7ffb67b9a54abac905f92bd60d21ea8d30fb3707d63bd3cde86b7c153ca7f),
  (0x6b613b87a1e953fdb550b7992ff1ec40b5e216ffafce3533d7147df8e9726a30, 0x016530e4eff82a9502f4e2dc2ef581da2ee1270aa190fbe187b88dba792d5610),
  (0x1b9754a00ad47a71600eff241da47adf16d3d98646848fffcbb93dfd8fd6ee89, 0x8a47cbfc19946eba0d2ce8e14ad24132aadc87aedf34186e8f9266df70c33b98),
  (0x39f8db14157f0eb9449de60e19f35cb1cefab5610abb373447feeb6662b5f3af, 0x0d5a8186871ad9537f8fabed224e1cc2a5a4d41d41216703ffaecc5b3c61bfd6),
  (0xbf71b5f5337202a5d9c2e722bdc32cff45b8a678cc8a9b0df10774f7d22da9a9, 0x61751253763a588c7e0bd13fcb904635b6dad34c765d01e195c57f2f69fc4db9),
  (0x15c4cb08311d8311838a34ae08533e8dc0f7d9c481b9d7dad85c299781af2c2d, 0xec9beaceb95075c00c6059b65d256274eea7dc1e85000a5f97f832858e121e14),
  (0x3bad30cf50c6d352b083c59401646f3cbf851cb5a8937877173daad71df97828, 0x39c81e9e4e9ed4f8d26de7ff1c0660293cf9fd4f18a1e8bafeb2b202496bbcea),
  (0x567291d1716ed1dd3e8c1a65c3ef64f801df2bbd964aab27d8be0cb97b390d35, 0xbe7ba92bca66dd16cfeb320ed5096ece71fdda395ba8e23f95499c6c5f5406d3),
  (0xf59814cc1c83de1e75b0a3eb8f97a36ae3eea15a6d2dd0e04608d36bc6fb5a7d, 0x3b866e7b1f756c8f46bf2074de316551a96c1da46faa413656c9c5b01c33c23f),
  (0xc243ce84857d72a48ab8454e758610f3b2394243b682dce7727727d81495ed6b, 0xb997f8cb058c7d420119d1e0ea7b523fff9afa3778e0f7ca7b320d71dbbf370f),
  (0x080c94a726b86ef16ade3b64e29634cb51dcec49a45d1fa6285bcd2a37bbb184, 0x78f4eacfb625830107c1ccb386964bec902bddc85a9315edba583db12283fbe3),
  (0x9633d50f9b625b02091d71c3f38bf760ba0f5080741d777b4bdf3a4956f90823, 0x774a4f6a00bd32ef9f9defc974ce1cb2b47512545de7472003ecb743b8c9de61),
  (0xf530e06919644bc7ab7b34b093c471f953dad716f3f8558eaca385f773848f22, 0xeaa392d54a18c900165c6f4bd5cc88d74382e0df08daa7953d9fb1ffdd59d31a),
  (0x632c96e0f29d8d54a80f87acbbaec835188763f28c2fabcd94203c67648024ee, 0xaaec2c6214b04e32f6c0e1d115b772232ef17f40e011e9fa29b0a60e4c00a95e),
  (0x4cb27077e39a407c4fff7e19760682a62af5094c958571dbd35688d83d84e58c, 0xa25423b7835835442bff109652bc1ba7169f34a61b34c8ff0f59c5474ff0e321),
  (0x31d6998c69d7e3dc48fce7416b8bb642ff6622ec2db3c8925d55d5d50ac8b782, 0x120e9934af762c8e94b189fc59630ec6801b0142d81d053cdbaf8004cadcaed0),
  (0x3321a50d4e132d373cfcabf1d7e8968119d8e01ea190994853a29aa4fdc6a404, 0x2066350eff7f5141af866c49fc9f8eef8c0cde6106a3bc65d0496863e9a86111),
  (0x658deddc2d93229f2b317462873cb8cbea1b0c07fe32983a4f8a4689e56ddfbd, 0x92efa539d92d26c9aebc0c723d047d70fe43287d730cc7a865efaf4d0f64ef58),
  (0x8bbb6982ff9259fe89e5c56576dcb10f415cb80f0961002d06e7845794b56526, 0x98da59e2a13d68056601f3be7b7da2b9b5d4f5341e678fb14fe8795b9abc2668),
  (0x741b32e579f19d373062ffb27fff2a7ca20cec41b86d2952190d8ea601799a52, 0x1641caaac6061f5b09735fb01cecb5887a2d0ed416aef06bf80d81814eb57d47)]

/-- precomp.rs, "1G..64G << 28". -/
def row4 : List (Nat × Nat) := [
  (0xacf9a2f209e414ecaa9097d7e1112357206828b6924302067f99824f20151427, 0x4c630fc4f62dd09c54fab5bbd2b288e27e0734b7001efee3dbdac9da27915356),
  (0x24ab68d7c4ae852957df14debcdaccd1b49258d86bc857b58537107a1ac2703b, 0x80b360f84fb995be84aedd5a291db9b35f8740c8c495cc807ed8b5d4734e59d0),
  (0xdac1e3e4fc1d7436bd3656d6a48edaac4134b57f9668960cae915f5d5fa067d1, 0xccde538bbeeb6f4a85138705d94203e8449ed3ecb26c33d4674ff869d81fbb26),
  (0x33331d3c36bf9efcd39923b9773b279c598b441dca1554dc55d5c68da61a76fa, 0xdcdb9dae6f7879ba94c855ea57b8ab70cfdb8e77a1a27f562d4c848e298de399),
  (0x6cd3d0d395a75439ea907f688a9173ddb3ce5bb3cb4fbc747bdff8c2019f2a59, 0x10c299684489915887ca6b157188c64a09a9f9b06a77339a92ecc4d6efed021c),
  (0x1c73d22854ef0bb40cd313875ead67ae16f338e365ebaf4e5859a229ed6e82ef, 0xd96fe4470b7b0321a04d00dde966f87e01cd29707f69ad6a4cb5513174a5c8c7),
  (0x341d63672575ed4ce8fa89de54f1bbcd02cd4a845c35a493342ac06e88fbd381, 0x96fe0a39a370751bc35c9f4452436ea0600b4d1aa984ead9ebe357fbd238202b),
  (0xc246780a9ed07a1fb03510baa8b68b8b9f943fb70e76d5cb4c4f07367f636a38, 0xb300fadc7bd282e3955e2c69d8d95413c2953f31607781ca3c0514156d549fc2),
  (0xa0e57c5aebe348e622f7d896cf0a5904db17375cf42dda2781fe7b5087e9189f, 0xdcf14a104d6d5c1d4ed9309e50fedec3b11893218db705c5a61011d3f40e3c80),
  (0x96c8b3e8d9dccdb4131329f5c9bae20ae8e0850491049dc7056c265b55691342, 0x0953c3d7004520807417b764fae050c6fc5a9aeb41e8ccf08c5ff838fb4ee6b4),
  (0x271e3059ea0bcfcc59641f1c76e7cf2dea417e152bb79d4b2137268238dfe7e8, 0x73967709f68d4610cbf84ecd4d866e9c2f552e254fca6186624c7dfd7253ecbd),
  (0xbb1dac6f5ad1d29742b091eccbc6da0afd9236e0899b8bf3a14b1163c27901b4, 0x1f374bb4df450d762d87c3ba13efcf774110a412d31f1ee780e61d53a91cf76e),
  (0x316163380117052146c0568e7314570fe3968ed0f4b885ef5e78e2f20d188dab, 0x36a44d866f50537082db67f27c5d8a514caa75ffdeea78da18e1e7e24f0c8afe),
  (0xbff17a8f0c9c38e534705281210ef9215db516ae27a70146d72c5bda0333974f, 0x4c274e87c85740de9e5b386f424d4bcac1e1661333c1698078f4814e12476da1),
  (0xc1da368b54c6d519580c85fc1fc4170914d1b944550d7ca8b6a9b88d6c2f5226, 0x1b480cfa50c72c8f46e2376715cc3f880670f6335a34708f2b0785ced5113cf7),
  (0xd953c50ddbdf58e9a9d4a7caa785ebc8d0981eac26b372f0202886024147519a, 0x863ebb7e9eb288f37fd9611022eb64cf72e9626b44e6c9179d6361ccfd590f8f),
  (0xc83e50e48265a27a1687d3771e5feb0d97d10b39d7b403586e6ab7616aca8ee7, 0x25f9680c3eaf6207f5ba81c56557d0e0cc2e8f47310d1f618f75a9fec954b313),
  (0x3561bf1c019aaf60c5c004e25c7d98fa5225bfa57bf2fe1cf95c66094354080b, 0x1332d9e40cdda49364e368a1269acb1edec2f934b04f6eca5e6f9f17ba151474),
  (0xbcf057fced7c6a6d9fcac9850a69392366d17da2009339a060d6cf69df23de05, 0x7c23b3ee1e728c0160e8cb75082b69ff25318dd8dcba4f24c3c5c8c5f0b5662c),
  (0xb39af66e0b9d283988d8e211d67d4826cb3d0a861985466515e10a0a097e4403, 0xd290d33afe0fd5e0fedb1485da27c26ce06b7966c077b80ba5f94588bd475ca8),
  (0x13e4fe07f70b213c8fca0993a273bfe3b4760cc81fb1ab09a40bcc47f34fb0fa, 0xc6905935b89ff1b41acb815faaf2e3e28c484b110c2b19b63bcdb992fdb05163),
  (0x8ab74e699f9afd31758aa2c7369c3ddb488883ad67b80484b2ad6f9d586e74e1, 0x9de0781a391bc1d9377427dc53cf40c33484518a318c42f910fc2d285e21beb1),
  (0xb604437b0d3d38d402c30ff26f835b84a38653274e81ccc78faee858693807e1, 0x5a01df0e9f29bf7dee36d761cf684a33b82f7ec903be0324b3fc8a985ca1823d),
  (0x25e94efb8f8f4e43bf9aaa0f076a7bc805b10da0437c622e686202f31306583d, 0xcede65958361de60a77e3843ebc394cee0e5fb9396ff03c58a35c9b7fa3dc26d),
  (0x925ef9042eb0837663fa2877a169c28eab01cc3624d671bad27c22f6a1993545, 0xd60897884f68570db60e1834d105e27fb27beb5b71c49d7a3b2fa3cf53aa0b32),
  (0xdcf6c430eef506bada73b1bb6bef119c738037a1815ff55123094ce0d6fbc2ac, 0x22ad6eceb3b59108853a81c38792043eebdd9a2c0a06562800e4fe7be3ef104a),
  (0xcc11a2e77c5115102834797c0d104b968ec7e16e05bda5d99fb813c039cd297d, 0x97c422e71f4ab207b5946852d54dfa7d054c8655cea3874296ca5a5396ee6380),
  (0x3ba62aa66e4660d9ba18f9ed5ab0d6932cde42aab7c267d4bf9075090c22b540, 0x666c5b9e7ed4a6a44e6a45067c4d9bd55d039642e3b60e32b24bf97bab9ea96a),
  (0x8a56a713b36bfb3f9ae9082021e6b64f4660bb87c6ccd753fa3fdcd98edbd7cc, 0x7b2524cc53e9666d30e9cad44eb74a379eed01b20b1a9a7fabfce0965726d47f),
  (0x6539a4fbe7128975cf3af47a3a338accc2200d7a41f4fc206a29683b8f4b002f, 0x7b7a26a554d7299b119ef4e96646f6237eb6799bc7be322bcec31c14c33c7fcf),
  (0xf3ed2c33e80d2a7abb8514e3c332142f94b8fc431a0ec0c7cb37f08d403f46f2, 0x847ff9586410f02b3950aa9f1c7e2b09f7b6be60e3553ade8d2080afb639126c),
  (0xf9fb18a004e672a6734257c5c00fb396d50301ae3998b620877b7cf5678a31b0, 0xba2f2a9804e76b8c4b8eaedf7dfd93b71e64e4c65d99ba44ff8bd8ebe8758851),
  (0xd106b952efa9fe1d58c5c476cdd8f5edc8e725a03d2c95857d790cbae8053433, 0x69b71448a3cdb89ae9f458d4c9b70cbd242442bae057b9303c5c775b0eff13a9),
  (0x2ad0436a8d3a7502b1e154ff9d54c304573f10454006749341ee46f60e2ed742, 0xd2b773bdf7e85e5857d49ea6034a0eb7cd38b3ab886f11edee4aaa2d431a8121),
  (0xcd927bec5eb5c78813aad704eda41891c444be1a3e54df2b4a559ac49b5c1f14, 0x87c6a79c792278651815f896594df8ec1b7ac8124b546669eb3c8516e48c8a34),
  (0xb0b9e864fee9a43df2b569c7839dff0d1339b5ac8a2f1cf3ae02a2f09b56ddbd, 0x9bafec2701d35f5e3ab7beacf86f689a145a2812fd249f634ff8ca4177bb064e),
  (0xf4b8f6ad3d52aea56887b0e69639dec7a4b18304035efe4228054c654265aa91, 0x08eb65e67154d1292c50e9b109acbc293f159e5d4c934d07fb9293cc971a8a13),
  (0xd7b514909685e49fd8ac377a89af62bb0bb82fe294491c934feff58930b75c3e, 0xda91fcb9ce0c76f16b601e213ec86ed61b35ed0a1a7ad13fabca9a7b04497f19),
  (0x443b4fbd3aa55b916b43f0a1aafc98277c19a55563945b7b9e28507bd7ab27e1, 0x779cdff7180b9824b93f05dd1b8d6c4f139da8d4ce0db0ca962b2e656962c88f),
  (0xa03907ba6525bb61fd9c80fe556d4aa3345342f21b932522bba23fddae57c7b7, 0x66a27dca0d32f2b28e14192094f2e6eac066b654aa52117b38b010e1ff218933),
  (0x27ec6e15d31fde4e49fa9058564f1d6bbf5a989ab178ae1c69c7f993048b3717, 0x909c3566477756315a72f0464ccdd97964086d7989d6bf024cce03737276e7fc),
  (0xfca56512b2c95432507ece52fdeb6b9db4c6bc9787a0428d1c07bc6b75dd7125, 0xbcf70dee4e7dc2fb5441ea203952b624384dd317c6bb46ea15d97181d0e8bd06),
  (0x0ec09a48118bdeeccf05751b0a344ee207a0d667b60a7522372b016e6628e8c3, 0x7c7f4454ae3e5fb7a99d898956cf044c43a6316d99d2fc6e6e4b3d4ed83dce46),
  (0x69b1dded75ff77f5093581ec97890015281850fbe1330076b2e6b121fbabbe92, 0x3c9f1b8788ed48ad3151f85feb914009953ced31a89ccfef7cf0b18fab105105),
  (0x467e10d11ce3bbd3eaede7273a2e4f83928e7501522e71cfc9aba1a14a7eadcb, 0x5d744bd06a6e1ff0f763a10efd77f474ba96307dd3d5e527f3442ac3b955dcf0),
  (0x0b7e2a946f379de46a7e75bb50b07d31e20eda8fd03f3cded287282aa777899e, 0x439bad6de779a650e18c9c9db62d609c7b1a9e4f1e76ef1d31cb64ad19f593cf),
  (0x56fb4c2d2a25d265ff0d0fd4fda12f781db632b8e8b2ec6a219d9066e032f144, 0x927d6bab264b988ee0317ba8d068bc9761cd6af2e96af1765f4e2ee1255a03f1),
  (0x5b89a4e7d39707f720387f2795cd67b500fd2b80bba7fca1a18f07e0e90fb21e, 0x5f548f314e7bb025c79563c7f906c13ba0025b946c2261328f83ad3f894407ce),
  (0x5886581926d8050e3982717c3fe1f4b9a67e3f9c0e813c762b4c6b8feac6d113, 0x05660e1a5999871b52f2c175767a1e08dc6102162a66ebc299f3640cf7f06f20),
  (0x40a886281f91613bc51758c7b75b226df0e7d62737ed7bea6b0f17626d3c4693, 0xfbf9a357ee1f5375febccd3a8bc9671fe0404b65bddcad81889dbaa7bbb38ce0),
  (0xd970195e5f17538aae7f3b4afaab1eb1b07ec11d72e90f655dc169b028f33398, 0x23e03b333a9e13c5761481545df31f82f5debd622643313d52b05cbe0181e640),
  (0xc447ad7a35ed658f702278fb87e1db6cbf8a1abee5b6ec20ff7589494fde0c1f, 0x46736b8b03be1d829bc7c89e6e17cecc80acb338819a7c0348d4aa3803d0ccf2),
  (0x37a56d9402cf312279a253077dff69a2ddebe7a3deb5442fd65d7b60c0432f96, 0x88b44089c2e71a88c664957c44c65cae13c3f276037b0d9a8bab8aedf2350d0a),
  (0x9b605ef40b2ad431ea3d9b62a682d53e5d4c0bf18686c72edb88e5a35cb02664, 0xf715b3a04d12a78cfe2c563a158f4dc4a115f03a6a1b66e771bac202c69645d0),
  (0x4d8c30799f6d3a71ecd34a995d8587f52035806dc04becdb8f7f0a48d413213a, 0xa42be3c00c7cdf68deee81d5cf8fba3fc58c9d7df2110d0d1b2a2a678d95a8f6),
  (0xa1f8fbd7384f8a8f9d0d5e36126bfd45054a0766dfa59b852126f742d43b5eaa, 0x10aad9182994a514e00b81b227b578cf48ca5055f280a928317680f5d563fccc),
  (0x45475f795bef7df109d1ccff655eee779f0f6ff25bc086ddd9e07b62b7bdc953, 0xbd71419af036ea2ce9e629687f8fa8c692e609050f021f073faa28fa86f702cc),
  (0xd831b6c9a5749d5ff8ff236e3fa997f45352fe1ac251f573171ee1cc6028da9a, 0x7d50ba87961c3728f9deb0776974f5cbc56240d91e0ce4037c872e1de350e2c2),
  (0xab049ff63a5e307b510a0471619e5696cf817799c6303d43d6f894265a3a2518, 0x00d0bf5e9d2012a2f6f64d069afa96afd5e971179d8ff90ce4cdf9b0feb13ec7),
  (0x4d542a16909209041f689e2f4f43d43a07689e990a9d47f8e63f301f358bcdc0, 0x29749558c08a6db61033bf1b0090008cd061fe458ac68065aea293d59ca0a707),
  (0x0229acb43ea22588fd520cbd860200e6f712e9f667e215e074b5fc59c1d5d034, 0x2d5dbb02a3d06493da85e61c96ccb98987684b6259c69e739cd1e14cfff0c82e),
  (0x31f39088032d28f901d2d725dd0d0c10e8e41ea5a79ff0e3f22ad33ae86b173c, 0xa5cd6ee5b3ab5314ef658dbdbefc61150cf691b44502ae587b3f71e17829839e),
  (0x4fa20dee9f847288d517d8ff58389e08794645ba4cc2253a206c8d7b5f1d2347, 0x6a1c915082dadce37200a3b380af82797360c91dbf429e26eba072d8d797770a),
  (0x9379ae1550a619679f59698d643322fd042e65580356bae50ee6d3a7c35d8794, 0xab09f647f99504282454b3025e4e65ebaed3d6316d2934c664b9ae62fcc9981e)]

/-- precomp.rs, "1G..64G << 35". -/
def row5 : List (Nat × Nat) := [
  (0x7a823a40e6430bb55659b7045afdee281f6ec0ef3264e366b2083a1222248acc, 0x1efe9ed3d3ca65a752b6463f4b5ea54acde09d4ac9ee657624592a04e1900a79),
  (0x9c479409c7762de4f54a6876387d4d8f8eb7dc7fdd5d1957e27a6dbe305406dd, 0x140deabe1566e4ae602d37f3dac740e325380c566e793682be4d5b5d99b30778),
  (0xd049d7309aad93f9d208dd0cb596f2dad8f0fccae1f71ccf4481d067afd32acf, 0x7270749090f034028cfde1ff835e0eda09411bb123f707b4c79f263d42ab580e),
  (0xc3c3a8e9a768638151a3f1e8c69bfc17024f3b65e14f0d06eaee6126c49a861e, 0xd6848b56d02aebfac67f75eb7651504a02bc46139218b36b3400752cb103d4c8),
  (0xfa9423bb069082289085c4ea3f83169b5a70d96d9a552784bd9802e6c30fa92b, 0xfd96bc709153218e9cbc2f7f6317884685da604971b991182ffebe12fe97a5b9),
  (0x6f0e96afe3088048bb5c60645f385153ae34bf792597e550958381db1782269b, 0xe020f0e517896d4d17c9429504fad2deb3b5688c69310ea7bf6a021577884456),
  (0x72cfa97741d22b9f470620106331ab71567f6813095e2ec5730ba0ab0976505f, 0x8f34f1ccfc55b9f3ba1d8f9c03029d15a8d0d5f47ba45a6833e55ead8a2373da),
  (0xa39b6663b8bd61a00036973a481058268187fd5f3126bd67cca4428dbbe5a1a9, 0x7b2f3a49d2873077f611ee47dd5d564c4969044f94636b196d42deef2d65a808),
  (0xa2864e4fa6243ea4c000dd76d3a47aa92b2a656e169c149494157d45300eb294, 0x46be862ad7f85d673b9a2c56e0b2f6dc12dfd7d761479fb782716c47db89842e),
  (0x8b8888baa84117f8f32e5c0318d79e19460c34f9f103cbc603b0d8dd0f82b214, 0x9bf02213adecc0e0d47c8468e0f7a0c610d21be91c1c0f278f3c37dcc0722677),
  (0x87c2ae569ad4d10d8b847cd6ebfb5cfb1bcb665d484240960baa7d1242b48b99, 0x11f5e5984bd1a2cb4bd0826a4e79d460e7043c683fdfbd21f1cbb1220de36726),
  (0x0dd04b97e793d8ccd73e9beae328ca1e7d16189a400a3fb297554160b7fe7b6e, 0x079b5499d818ea8426fc430db64b45e65cd47aaecf38814ca9c83c9b506db8cc),
  (0x9ad76ee876176c7b103eea6936f00a4aca24e5681c161c1aebb01102c1c24a3b, 0x27b4a7bd41224f696311436e3249cfd794f898096604b3b097451fc2538e0ff7),
  (0x6aa7cb92efa8b1f33307c052cac992d0279b0254c2d3193703b5d21ae0ac2941, 0x035a70c9030c63c692ac2d66d5d2ef9213380c37342d54225a1825800d37c7a5),
  (0xfc43c6cc839fb4ce6d5b221491e4bb141f419a71f9df7c06c16025dd4ce4f152, 0xe1a9c29f51d50e058c54a971d01b16294b37d9d36218659849f06591925d6b2d),
  (0x53fba6ba5aebbd08e8fa84a78633bb9348b22d5cd0c8f93d5109b78571ba1861, 0x2d50cd53fd0ebee4b9d5133bce6f1a05521c879668ca71587ff27df3e5eea7d8),
  (0x9a89dbdb8033fd85e4da2c5e4b5da81c993eff9dba079221c82115d6c5a3ef16, 0xcc6ab88561c832846ac35051d7fda42153902b215d14a4d560819ebf2b892891),
  (0x084b1fe4a425ad73cfbb65406f665bee240aaa03ecb813f214eba133f74cff17, 0x0ada9f07ac1c91e3f20346d5aa9eaa2235304fe8eef82c90009d5d16d081f6a6),
  (0x61bd2ee0e31f1c4ad6bb787e5781fbe154c1f77c07b31a1ea6e21678968a6144, 0x01db4ebe34bc896e26d15412cdff919b9cf2971f7b2f8e80f25aa1e9781105fc),
  (0x865daedf0c1a1064bf57bd14669cf9215933737394e971b47d9b3e23b40df1cf, 0x49699f54d41e6f0291e3ed7e5f755cafbc3d5b9f34ecdaab3eb70bd383279125),
  (0x674ce71904fd30fc352018db473133ea08f3587aeaac87e7185770e1d4a7a15b, 0x61ea48a7ff66966c9d9e76596474a3c47a0356a95d0d47a17b8d9835088b3e0e),
  (0x2a6b2421a245c1a8756fa17f2f9a67b3fdbb21c217a9afcb304177580f3e4834, 0xc4efa84caa14403b8dffbd39a6f08fd7ade465c62a5804fe64be27944af02291),
  (0x907ae2710b2078c08d1b62bfcee90e16b748e317cf997736a1b91b2a442b0f5c, 0x61a9c0d6b144f39399031043d826846a043fb05439adce83df31534b0c9bcddd),
  (0x6ac71e2391c1d4ae408d7ee8e49a1347df17ff9b6e830f8bdab4804647718427, 0x78aa829664105f3039db1cb59e7ef8ea19840657bbbbfec5c8cbb9fd1defd73c),
  (0x0974f73d33475f7a55e506f6445e4caf0a2f235abc3250a3a3d9b7f0a3738c29, 0x06060d7d6c3ca33e26d99b53c5d73e2c542c6e636af40066d37dbba35ba2f5a8),
  (0x201b3ad034f121bfd7c549f02670835077e60f7dfd5b92e3cdbef1c2065fef4a, 0x5fc0738f79d4f2897dd8a1d3976530828a9a9e09344552f65fcac2a10334fc14),
  (0x8efb14b1172549a55ddb96dde4f73ae5effc634570830684787d244d17d2d8c3, 0xaa688b24782e152cb577421d30b01f5dbca4061eea11f13e6eb73eee2245ae7a),
  (0xde484825a409543fb08dde5efd6125e54ef41f24b4de75a067608e71bd3502ba, 0x01a43c79f7cac3c74f9697a2adf35fc7428a37716e0edfa21f198d9865cc2295),
  (0x32125ed302897a454023d1ac8cf984d38927f30cbb7f2d9ab05d70590fd3659a, 0x5b61fc676b0b3ca54c0868e9f10a558173000ef2e3fa82a9fb572dad3d414205),
  (0x3568faf82d1408aff61a8955de93232121c08b41402b7531c1258d5b7cae440c, 0x681b20b218d83c7ec6f4caa1820cf9e2f14ed248e917276f71b15e999ecf965b),
  (0x34619053129e2be795fc064474afe18c71db0813ae70e0db6cde738dc6c01120, 0xd74bf462033fb8aa0e1b84c88fd2d3670a49a19edb4c707380615ceadb2a3b15),
  (0x75910a01844c257ffb670dfbdc2b41677158c7e4c3ca2e87889f6d65533ef217, 0x29f8be4c2b812f582ed92e8d7ca23d8522245250e45e2acef336bf07cf88577d),
  (0xc0f9843067883b411aa9352817bdfb463f2400cbae1537f9dd9ebaa7076fe12b, 0xb40b796a6bd80d59e1fa1df21826b8d27562f5bb34d4b17f5590ede10170911d),
  (0xa8f3a69a85a4c96197c8a0f30e78f15d8c9b46dbf70954b0d65bf1973467ba92, 0x9e56dec19a9fc225c6706f8eec986416bf06aab36ea6790c4242660f61e4ce9b),
  (0xabb61cea6b1cb73424eacc167d9e4297d799e77b5633cdef527c46f49a9898d9, 0xd3918e6cd781cdf6cbed86a13003bb6f3bb42bf129de2fe6bee2e8a7f778443c),
  (0x1b7faa84c0b80a08b8e122cb6adcc1195243efc6f50eac064bee32719a5103f1, 0xafc83cb7cef64eff98ab679c1d263c83129dec4e0be427de32c3d1bd6dfcd08c),
  (0xc44f601b3abaf26ec154d3edcf618dda892585fb1328cbfe85eb60882fa6be76, 0xc76f26dc5562a0569353af362db591a8a833bd2d21137fee7bf57d0b2be1fdfd),
  (0x7c72c0180d84370991bbf58f89e0586e7afb5f9355c9cab01d87e47d3fdf5a51, 0x453985e96e23a59a7178b7ddb667e482a48a0f1d3844aeb0a9a5aafb99b5c3dc),
  (0xc8892c6816d5830d5f8aa6100ea90cd90dd37f48fb897c8a4a54c86001b25dd8, 0xf015de21dde4f64a9bca20dadbc40d5f478eb679e72c9ee6eb4befc0ef514ca5),
  (0xd9f0694af27dc09d668a4b017fd15e7068cfd9ca4bc60e32aa6a4de0eaf4b8a5, 0x23e274e3abc77870aa28c1d333c0a58f5cd2ba695bb95c2af6c3cad5ba708bcd),
  (0x9072e8b9667343ea6c0bb69109a0757d091c5fd381a6665344c3692ddfd20a4a, 0xafccd1272e0d40bf01a77c6165ed43f595bd480a79fd36cc31d40eb080848bec),
  (0xcf46369e04b27390c7a6caac658e099fc85ac2015d4753b4eccfc82d1cc1884b, 0x28bfe3c7bcb00b884029abd8ed80143a481b63a237cdeccce2e7d049506467ea),
  (0x32f7b360719ceebedb02432cf83a34d6885f3668abd110413bec10090643d84a, 0xcd2bd553271b9020704970e9e2d4755060a157a95441a0b0f06c7837dad1fe7a),
  (0x276feec4e948d66216353427eb5f58259cbee23ff2565079ff57f82f33e24a0b, 0x96368fff3a00118d934520762420e7ba718351ddf0e72a53d1b62bc6da10032b),
  (0x6c8455fcec9f8b7cbad65a4658b196d00c28b6363f04706b00ce2d26150a49e4, 0x239639e78cd852512a37a15ed8f6ec045c0be31bedf9f38ce90c895f2d71867e),
  (0x68d12af7a6849238b8d53d0c007132fb603aa3c0d7409af7d89753159c7c4c6b, 0x610c71d1a5f4ff5ee81079cbba7e8ccb9aa50055aada74cebe0607e7bf5d9279),
  (0xf938f756bb311592074d39513de75401ca84004ba75da47c9e2ee1a75aa07093, 0xb28446ea8d1a8f08278f710a0a17127639a2536207bc78c89619761800a43421),
  (0x186d90b758d3dea7f8ff95d6c59eb6627751cb1de6d279f7184781bfe3b6a661, 0xb4fb8c60f0dd7f13c561e4521f54564d5c5cf56b2b2801dc0e4bb6c1dfb4f754),
  (0x14d9a149422cfe63f8090bf61bfdd80a9619fffacf17769cf884963033ff98c7, 0x213dbda8559b6a26207db7c879eb3480dbcf770d218f17eab354c3606f6df9ea),
  (0x051b92e192e114fa917995301481aa9eebc3e09f171d87c1ac4c200b29fc81b3, 0x964b685681a10c2ca711455a2adeb01644b1b2cc290c7483df8f92e9ecb5537f),
  (0x57a54f507094f103b231bea3c5ee484905532225ef3271ea4f159d99cec03623, 0x5d0928080c74d65dd2998a251cc3a912e865a49c67412ab43e2d421d9598b352),
  (0x39d12938f561fb808c9adc34caf0c13deb6b280e1f214a6173f459084088567a, 0x91e32d5c6eeb3b88062e0400e186ae727485b1b1fe4d210eb2dc3a5ebc6edfb4),
  (0xc6e21e7d0d3e8b1026c2e6d0cad6ed33ebc88ccc716d55f36df574d74be59224, 0x3ec236298df064138be8d3214e5193a89292445e7da74f692cc5840e5bcc36bb),
  (0x9e29493d525f4ac4b9ad615e2863c00d6073b1d01bb2d475c7e9ae85b134defa, 0x714b0d0ad865803eb05d70ea04da916c3e1f01c8a50db88dc32b1dea4e9acf4f),
  (0x5ee06e87cd378553a2a77293bcec92355b44b1f792c7a3ac4bd493fc9920cb5e, 0xb5056604d25c47322945106aa6f734ac2bb03e4c99f5d290ceff8173da621607),
  (0x38a673a21e258d465966bee8b74a5ae5686e17a06789831f5945920ce079afee, 0x415ec10c2482fa7acd3aa89674e5fc783b2ecf4f0e96e486bd1cc1f283141c95),
  (0x07bf22ad2dc7780bb0b52f4e63caecae513d917ad314b3921523441980503380, 0xf1fa0bda5e0070f64fe728de74c778f11b3be9625dd7feaae761e8a1e4306839),
  (0xdb1c1f38d4b7e644de3c19c06f30ebfd2c7e4a14d298047585205a316ec3f510, 0x2930967a2e17be172cd2c30237fea38cb7b22a3c058f5be3fe291a755dce364a),
  (0x81bd8b5c282d368849bd1cb43bafb1ebcb014aacedc6ed4487f009de0c061c65, 0xf4753e7056a6015c5a6c567642fc819321f37ac4e710063b1cdab87ef01a17af),
  (0xb4fb0c0c0fc31aea63b7e89ba4b675b58f37c8d78958a958020f795ea15b0a44, 0x5bc5118ca868dcdbdeb6ff02947151ab9880f5a3619614fbed95e639a7ff1f2e),
  (0xa4ddb65368a9bb50cccb22c1622d599bcac2776e14c4d69ad8da20554c20cea5, 0x45542e3d1e29dfc435034363c48345e0e1ff19b46efba5882c4ff1511b4941b4),
  (0x54dcf42135af32b67c175ee823aaf6d83b2b5a008fca8420f197cb91349f7aed, 0x77a544559cd55bcdc7c4367399807db5879d5ee4d175b1e20ba1430727d6561e),
  (0x06a53ca0d9cc6c824c3018200e2d35c118f7a99f8dda7da4e6c2ff130105c072, 0x16bd173f98a4755a2a6d13280ebe9fdc324143344a75b1e8aa21cc1ef1aa1d9e),
  (0xd6aebf56a40eddf8484bc97dd5a1f52a39a8b2f1830f1a20fbb9b2452133ffd9, 0x0045d5cf88647c168eaa8863f8de7dd1af4d36ec1586ff2732257acb76ccdac6)]

/-- precomp.rs, "1G..64G << 42". -/
def row6 : List (Nat × Nat) := [
  (0xa8c8bf5ba515344efca5c1568de2ecf9c2072b426a40e350a6f3d574c005979d, 0x71cb9e27d3c41f78754cc28f2ca85418d4374a4dfdc5ec6b97aee555114df14a),
  (0x732caa2ffa0a2893f374493416923684f0843d9ea142c96c8910507903605c39, 0xe2e942399e2b2e0739cd818ea6eda3acc32788cc437fbaa3b2e8c27061160170),
  (0x4fa2087781ed57b30d9bd60521ca7954d42585cc906533256967d39b0260e52a, 0xb2278163f553161428be2b24b1af848356b0040c84f6ef6460c1eff8e34a0bbe),
  (0x31682c10834c008b8e77b21471de57c4a7b3ef5ca52b3f638df275455922ac1c, 0x9c092172184e5d3f31db0903c2a5089db6d1c08617b61c71c76824f04bd55d31),
  (0xc457786fe79933ad2e8e52886a37f8d61a2015eb61278fc2dd7ced5bc00cc638, 0x698cd1053aca2fc390d87a4fd28db5e5ad9b10b224c20498b3fe4cce2c51211a),
  (0xe23c2d417b66eb243c157b2c197c396fceb982f29eba09d64f112d07e91b536d, 0x0b019211b944a8d4702388decb199ce5b3a4c8a179108deb480c57d93f330d37),
  (0x625fbe2fa13a4f17da20d6fcdec9c3007c353bdca669fa7b24f2a692840bb336, 0x182dd27d8717e91c49690939c620ff46008965bfa9515621a2b1b61adbc17328),
  (0x6910b95b5fc3fa39ef18bb3f3c80dd3954259aaac2610bef5ace5035ea6c3997, 0x6982812eae9fce6910e265acd872db61ced56c9fa7675665fce2f51043e09aee),
  (0x2ba2f5489fc1dbc02c1931975a4ad59072bb1752b90360d929be11c6ce800998, 0xcf7d4aa8de1c6dd87197cf81e903ba3712a0a4cd7fae11c07fe4eebbe490ebe0),
  (0x407b3c43f59ad8febd960f3000546a822b26eecf80360aa192af6bf43fd5684c, 0x033f93446ceb061587f551e8949162729e0faec72463744c86cae5fe249c82ba),
  (0xdfee4cf3d37a09babcf687d5a6e921fa89967f0e7a582fef1e5eb0d18be82e84, 0xccaf6808c04da7257666786466f05e9f638b9a1c7635c03094f06965b493c465),
  (0xefc9cdefb638d9900efac0d0e2fdfccef402d37db835b362ca2eb690768fccfc, 0xc38fa2f77df25aca30b21909fb34870e33c536bc5774ccbd2af12b72d1669a8b),
  (0xed9775db806a56c588d2aaba433c54ae0525a5aeaf7e458174c5f02bbf81f3f5, 0x931ec1f3bdd1ed76ac661d1710600d7625fdb6ee66cc1f51d320738ac0edb37d),
  (0xf08d93098b0c53bdd26c91a3984be6e85cd57c3e60829d9765c11d6219ee43f1, 0xe037762620b00715886c5ad773701155d391683911d43d2b94bc9e5bc016e4ea),
  (0x625cc3db91dec14b970370f1e88128af3083411a68538e517f01c9ecaa80ba59, 0xf579c8e500353924b0f2629992be5df7b2a8d577d5057ac3fef9666c01ac3107),
  (0x4e413c01ed1302e43dcb194783b8c4a44223272ca7b59d49b8fa3d931341ed7a, 0xb73540e4e5aae47df6902fe625aa96caee86bf7533b3adfb6d999127e17e44ce),
  (0xc308c2893167c0ae40cb76c010d9f197e571c99e27e2a36932801d7b1b4a158c, 0x4efbce6c7bc37eed6cd0b3627edf0636a7226dfc300879b1a6ef9dd3eb7958f2),
  (0x650d86fc1465a8ac378ca5f1761ad23a586d4c79772566e375f92a058d699021, 0xa4cefe98cbfec369af1543b731aad6576b65e3e6422349337a4ed457842ba251),
  (0xcc30477a05fc4cf6a691ea59eff1cefe6562e9fb41312d13b587da909f47befb, 0xdc834e7bf977012a5b148d534224ec24a1f16f3b5b355956a16324610b0ffd3d),
  (0xcbd5ca4a7806dc55de0df03cca9102713aa77a2903c3da6c7bfc5e75b2c69dbc, 0x96c5c5b17d342db5f49af520f41af416fde15d625f37a31ee1ca58076db476cb),
  (0xef2bc1c08599fd721d2987da675d43af2e9930104e77371a155c43b7eb4ceb9b, 0xe0f8a742702a9704f3479d9f4a1f3efc201eadf27c8e71f096894b7b9342f6b2),
  (0xc15f9c969d7c263e0091471a619d505ef9739f29c1c1e0d0eafd44b6b3eba40c, 0x2ec5b26d9a4ae4d2e76526b9751a9d11a3b6d6af04f1e0925be4728583afbe33),
  (0x288d1c33eaa5b3f0eb7050c180ef30004063c56196912164eb66f4d902f6fb8d, 0xf854777410e8c13b25972f3aac8d6627b2f7f9d54bbbf50fe87c68d607806fd8),
  (0x61dde5df5990551239c5c190983e15d1ab2a34a44613521bcc50ef6c872b4a60, 0x3bfd9fd4458589bd75b04ab978b0bdaa0750c8b6451d894be417f6219f2275f3),
  (0x71dc0dbe698a1d32ea96ffae48d14d9e2b51af9323a4743ef1013e30ee9120b6, 0xc650c83bc9962c7a8cf227b1437bc4441ae60677c3568963914962d20180cca4),
  (0xac2c8d49a590475a4460f74b06783c33f925c89d1b929d4823c2c7ddfe7ccfc4, 0x67ece5fa332fb4b2a33e9681cbef64a49d1e362d69ff8f3afb40b407b807bba0),
  (0xa5a8368529580dddee18a626a9e2d041c3341ca9ff5259256900a99b739f10e3, 0x3031413513a4b1aef43522fac010edb0edf025862062cf9cf3470c819d7de3cd),
  (0x89529ca7c5ce688a8aad6cd3cd1e1c63993d8ae9a1eaa45bc792e02adb22b94b, 0x06d1b1fa9d7db504a7091b6ec9430358e02b643802a21efb2ccee3aae572a253),
  (0x526e4488f1f3503f2f65655f130ef6ca40517c71379f9e3458846d32c4744733, 0x5eb5da0a2cdf7f51d8d24c33b069e0411d9dc913921363d18467bd177ee4a976),
  (0x7bea4093d723b8677766ffc9a6097ea53c95a6c52843eae91c0f3cb1197b994f, 0xb98a15ac16d00a85943dc8e7af24ad4670025b00e37b77acb48e1f734db378f9),
  (0x326189059d76a3b6ea43df8f1e62d05ab1c7f4f7334415ee3adc38ba2743b004, 0xb94df65e676ae22b7801d94ab4743f945bc971db6a01918c2fbd0bb5a23a0f46),
  (0x5977faf2a3fcb4dfeaf983625bdda48b7b9bdc07276b2241aafcbfabaf95894c, 0x7d37fa9ee64a9f1bc89c73ca22f24ec79fe87f71067591f0bed042ef052c4b5b),
  (0xc2ca17158b03f1f61d135c562bc686092c01a613c243b0342710841a15562627, 0xaff6218f360c82b077b34bd78f72b43bc02abf4a8f6df13ec9966c2d3eb81d82),
  (0x167557129dfb31119097549cefb9e72adc0adbe999e9bffb0aa5726c8d55b9d2, 0x977f3fc7389b363fc1fd32a75171ef9cbcb8e387dfb30cb7dd8bf984f26847f9),
  (0x1ac30885e0b3fa02d1e3f064b7def526feab68bdf7113c8e116eaf2bf4babda0, 0x380e1107cfd9ee6d48f301fa36a116a3839b560330921c0b1c5a6e7b40142d9d),
  (0x6356d4048d3616f5ece3b1ec3a29c2ef4111c12ecbd4d49d7945ead858854be1, 0x9abe5cc5a26a9bbc6c32117a0f8fdde40989316df651ccd29f0d6a8f594d320e),
  (0x186e2220c3543384e4cb18da24ba069621b2a12d7f3d593ccff560fb9723f671, 0xf435c650f10076a062467bbf5a85ee8994282a9917dc7752722f64e088312c29),
  (0xb0179a7d4ea994cc31bfe063f7b0c5b77132130c1a53efbcc9ff153943b3a50b, 0x22dd6225ad92bcc7f64e590bb875d6d9472593288f6e006212d064b3c85f455b),
  (0xd8515b8c2d33407d0c6813371062c45d00cdb0d6fbba27c8b658038eb9c3bd6d, 0x20a8dafdecb49d192c11850abb3e00db8c4347f8c608d7d8cb8f699e8cbb5ecf),
  (0xe40e94e2fa359536de0b58a18d49a8c475e354af416b60cfbd78148045ee2f40, 0x5a9e01bf48b13740b5abda99448c277b05cf466a8c762837bd4fa59f62accd76),
  (0x2800bf0a1cfe53e76fb274a2c253e292bdef4954c396f7e79d457798326aad8d, 0x9e5e7f137f9fdfab4188503c03f66264ef2339235e259f9a22426d3144438fd4),
  (0x92b639ea6ce39c1b5587c087aab6d3faea63254859b5bff8565eb76c5fcc1aba, 0x83b90f529bc35e75599e92c7090e74697308912e425268ef0706e782953b135c),
  (0xff18cdfed23d9ff0179c67749c8dc751f3a4435811965d724750b3d0244975b3, 0x263c9f3d2a568151f60417bdd0880a8496e280e2f3bfbc79c40138332028e247),
  (0x45a0beedd7535b9a5cfa0ecb789fcfdb846dc0c2f8291d2136be15b32d2ce811, 0x3cf49ef1dcee954bd36d45eff9e2e09f31a7c5b8599ab6dcec8e9f0796d69af1),
  (0xc1e5f7bfcb7e25521e96b8cc0dbfbd1d88dbd49139a3360f6be34cf3086cff9b, 0xcc2b981813cb9ba8aef0d4c7041d68c8c770dd9c7aea9dcb0547b21428819d98),
  (0x249dd198dae047be1948dc27d14dab636b7b9337502a9a957fc7bc76fe86c607, 0x93d2fe1ee2a52b5a1be11f90c85c72093531dd183a893387e8356584a981a202),
  (0x5649cddb86aeb1f3911459cb54779f5f9cf6d6f4bd0aa5de8225bfe2ec6d6b97, 0x84973819ee3ac4d7559dcfda73b84c6fc289a102550f431e321335793f26ce5a),
  (0x864e359d5dcf2706acef6c2ab1a4e37ce25f706190f2fb57b51e55e6f2606a82, 0x2056538cef3758b5ed4898628ef16df72cab25003a96b23d479e6b187ce57316),
  (0x6620741fb3c0bcd6366e19974ed1429480c5533a61b553d7a7df865ef15d3101, 0x15d06cf3f26820c7df01f630a1c462f0005b859ec1cc4a9d21d1d9c4edc45418),
  (0x2378dfaf1aa238db00bdf4575a0bc4532ff33e964a0c902f9f7f24ee3484be47, 0x2e287f8b5cc86aa8d1242cc6768a15582ad9d95b96797291272420ec856720f2),
  (0x7a1efa0fb4e17d022645eea321f0cd84ade55f81675d4080796873d0990cecaa, 0x85cbba4d3f7cd2fc59c3699427218710682e05f0d5d43e12f6858420037cc061),
  (0xff5f5dbf122823d417b93ab9c23165ed9f8cd5dc4a628397726f97297a3cd22a, 0x23608bc8521ec74a6387ba94de766a56d1a9496f677257bac1e4e4b5654a446d),
  (0xf73e00f7e3b90180a62f07acb42efaa39d6b428207373abd16a522d76688c4d4, 0x172755fb3aa8b6cf76df436b7220f09fc4e44f9b3dcf267836175fec49421c3e),
  (0x33ecaa12a8977f0bcdbb63e211e5d3990a0a6e025fe0208fbab89d57446139cc, 0x1dcf0176720a82a9035822eef4502526b3e91b32ab65d08a59598b21f7c42664),
  (0x30c3aa4fd79670cd8b8068bd1571cd07df0478ffb1d63d2c50f8598f3d589e02, 0x282736a4793de69c65b6dcbd3a3f9ff03d1debdc3279001125e8fd4b941ade7f),
  (0xdc4a8269e1877af0e2801d97db2edf9fb533b8c907a26bdeef69a0c3d41d3bd3, 0xb46833e39bbca2e6d36d36b779b3337484632f6bee4e93576c1c58513d590dbe),
  (0xd1416d4e849061fe72c56293b31855dc385315f766bf471937893913f7fc0586, 0xe28a413fbad1522ed06d310d638b1d0c447f6e61f040c996beb3ab7851047213),
  (0x7df39b87cea10eec6ff660219ca4c455610d07f70bcdbca3685a76cb82003f86, 0x8fa15eb250d07335cd4ffb86859f92768cc6d9eb08a34c44b9255f96e22db218),
  (0xaffef8090e1346868f22b5b9e4a7ceb389f66a9f52f9c3badf553845cf2c24b5, 0x2dbfa947b2d74a51b6b91ec532a43bcb93c1e4eb28aec98e3e53e1c68eb8fac2),
  (0x688969f006d05c3f3c41718bf1cb6e31fb13919fad58e65ce065d190ca84bad7, 0x229f789c2b8baf3b5b1be8b10945a39dfdfb65e97367532bd4f94ce721264d45),
  (0x106451aed01dcc89c69ace82fca6e867678ce828907f0792d8f41f3e6f49f15d, 0x99a3bf50fb3237058f13549aad9ea44564633dfcb00c52d21bb4f7f019fc32d2),
  (0x4bac9c2a9e5bd73476ec21a1a530fc1a45b8f1d1c2a2fea30c9625a2534d4dbc, 0x66452e9797345a411aee24b91207f13d0045cdee1182d9e35996d76a7b4e3587),
  (0xde4caa4df043cccb6edd61e7662496639cc72fb1d7fdd07516e5b0549f950cd0, 0xfd4a60328e20f64378030f86e46081e7779cbd441a85e24d11b1f57a55c7ac17),
  (0x3e4daa4cb1f115883d418c760c110f0539bacfe34e548e83cc7a64880a750c0f, 0x6a444f65e6fc6b7c885b2434d722df9446f147bc920531272733e7b55ffc69ff)]

/-- precomp.rs, "1G..64G << 49". -/
def row7 : List (Nat × Nat) := [
  (0x3392f2ebd13a46984767dd956c68a172115a461db2f1d11c7a1a465ac3f16ea8, 0xffc5ff432446852d76d8cf69a6d391988e537fdc22292b81c7a99ccde526cdc7),
  (0xd8d2c9ad69bc372485454a3c9f10903d513257b7b6ae5cb797b14f7ea90567e6, 0xfffa707a56c3614e9bbfe43501918e42b540a21d77c8cbac38da93246b29cb44),
  (0xbc41d1c9d3273ffd6408d5ab574b73fd062d8a14ef46b0a00ce4e3f1d4e353b7, 0xad825d0bbb388f731cd916216b9b331a71fe8b37c56550313538e1e76be77800),
  (0xd67b085bbabc04d9e7076f8661c4c9100ec0bf9171567e7e56c2e05b1cb76219, 0x953999179dc0d6950d44d367ecdd0bb77526c1eafbdc249a9fb904595e93a96a),
  (0x1fa297b521974e3be7667cd12fe5325c057cdcacb4b9446661360ee99e240d18, 0x21468d72a9d923578949269b14c19f8c31993be6f206bd15fa4081e7db083d76),
  (0xef2a6cb48325362d8baed83312f1aea2957ed188d1acfe972ccbc583a4c506ec, 0xb52999a1e508b4a82da972a708686a5dc842025a0e6050c6130dde428e195c43),
  (0xacae6fbaf5f4764c8e6a93be3f67dbc1ca91d249096864dad9f090b910a5a8bd, 0x1257ba0e4c795f07d524491c908c803028fa787fda0a4ad81563c6e0d21411a0),
  (0xa96e6d06c4f144e22555e355723fd0bf426d2cf64b7939a083f49167ceca9754, 0x63439dd6ac302fa009d7e772b1b65e1515543815e508e4d54768a8dd87880e61),
  (0x3f4d069bbf433c8e03a2510416d4f36271735b7c4341333cb93f802fc14e35c2, 0x7d0809669ddaf8e1c74f890676e10f8350a8ffbe7c4eed070d83ae01f78f5a7c),
  (0x2dbc9d0a7853fc0532749e8c4f3c6179877be203169005c8b11df8e1698e04cc, 0x0fe29735be7f785ba9129ad8165e68e8e682ce9db4800e1b187d4f939454d937),
  (0x55ef72b296ac545b5f46cc2034d6632ba37c969235ee04e85303f40c5b9e02b7, 0x0de1f28ffd2a475abb04b4283a9f41170a79e1c7bb33e821abec5c1f7b91b062),
  (0xb043d05474f6b8dda9dac80de34972a7a34581111a7954dc31019ccf3a4434b4, 0x093e67f470c015b60aa2c794cbea5ad400a754ceed5cc03f021c319e11137b1a),
  (0x85185e89a1de6f473b02d2fcb59806b9c10bcab4b6da746172cdfee9c97e3f6b, 0x6380e5219d7259bc5418786e34be7eb84d4440bdd4fa5b0439e6931f0eb6c4d4),
  (0x746e79f2d8f54b0fdb82fe1aca71de1f272c4166cb3a4da420ac0351d598d710, 0x513ba3f11f472da15c1cc36d0b98d87b75d03f46fd4b50406e7fc7364b573e9b),
  (0xefbb3bb08c1f66192b6768a972232173f82ab5687891d56479d0af26abb177dd, 0x648e86e398b0ca7fd4dc18f09188e290519e2797b0916d3ab29c11dba6d18358),
  (0xebe5a55f35a66a5a2793fb9dcaff7be6b14f176c637abc8b859d3145983c38b5, 0x69080646c4c935fd5b543b2226eb32577c595cd3fbdbf5607cec1dcd9f87dc59),
  (0xcd06a541ba6a4a627c605bb11c073b11243c3894caf6df0a7f2e440381e9ede3, 0xb4e52113fc410f4bbfc0c885e9a8503533649d074af668802916894949d4e2e5),
  (0x9b45d0b49fd5789402642216db6e2dd892ea4a2a9edb1943dca3b70678a6513b, 0x95c5b4d7db68f59cbc2208b4ec77c2721477dd194c57595f114e70dbc69d11ae),
  (0x2353dc8ba0e38fd6fb5dda42d201ecbc386ba4229ae35290b8c4fc6342e532b7, 0xd3fe03cd3cb1914d5e279d6ce5f6886d96ec56822ad6d11f9a0b85ea68f7e978),
  (0xa3a1c6210f11336e791fef568d01d374952bd2afe3ea810cfe541fa47ea67c77, 0x25059bc745e8747d003c6689bc69601bff7038af3225c3425ad0d5a9c7ec6d79),
  (0xe600da31b5328645d7ac762070081d6cf6840ea686916078fa4965b2f2086fbf, 0xf017637be7b43b0c29eb0fe8d664ca7ce80e48582d7d6f3e01916f63529b8a80),
  (0x19ef73296a4907d87ae7b9cc1f08fe458f76acb1b24892d99a75c80676cb2566, 0x3baf76b4bb86325c0b1f482edcabe3c0f3cdea39817032d72db4ab715f228bf0),
  (0xdef5d294b246e4997636c3a6193dbd953bab5d298e77c596d49065e010089465, 0x6de01f9beacbe14c3002c83af0992388a0b93939cd80862bb22c58b9286b2475),
  (0xea4bf352725b3c4375b6dd73758a6eef708de92a7b4a4e8a6aac688eadd70482, 0xc4f0f839515dcf4b19ae23c5a9f3860ab1b1be95ef09297a10041f2c87912868),
  (0x7cad0a1e5256b57869cd13a0b3a1d8a2744c44ae68a3a4b03c7ecca397f6306a, 0xddb7091eb6b0544273b391dcfd7affa29cc2a05d74b2e05fea653fcd33791d9e),
  (0x9cbdfda7fa680fa0fd3152851b71e3da195c63dd89abff17c71e27bf8538a5c6, 0x8c5bd833565b1b70663357e3f208dceaebe2764b3c2732719db876ca849d7eab),
  (0x83a594c4020786b17428243ddfdf39909b641ba8a79cf00fccc3b4f59837fc0d, 0x80344e3ce07af4c3fdb261e3e9ff0ccd9d39438e6adb3f93b712451a526c4502),
  (0x482cc2c271db2edf2478b6bfdb25e0c308a3b8655c99a23275900d7c2fa4f126, 0x0d3322182c269d0a3fa2f10ccc8c19588a93821b9a8005b437df7e645f321bb8),
  (0x4b779c97bb032168d293231eb31aa100b39781e4d349fd1720ab8119e246b0e6, 0x3b59cb15b2fddbc1db84f38aa1a6bbcc45b7efe90c4c869d4b3f19e1c8470500),
  (0x120a4bb979ad7e8a72cd1fe0bfef9f00499fd6a9061f8811ba5514df3fd165e8, 0xd2fa487a77f22089d42301ba9d17baf1cfd174f195a7a2f0f2ffd0955f4a5ac5),
  (0xfd37857461c244568c5469016c6067bbe956693921c996829cb09efeb1dc77e1, 0x4b93cfea1b1b5e121b763e1c7f1b01b462d550f658e87f8b2b6a6cbe81796b33),
  (0xe3043895bd35cea8dde922519a86afc757201c0088cdde69b93452381d531696, 0xe0bf7977804ef8b5d4c60a57322ea38b8267dfa92535935e7608c1e18555970d),
  (0xcb228da3a91618fbc542b6d2706dab28d405991e94e7b49d1a0dab28c06fece4, 0x676a72c59b1f7146c02ba3860d6e41cdeb9fdab3d0f5d8f1224e4164107d1cea),
  (0x1b95b230ee8f772ea1bbf5d7641c7936cef9c5cade2e8d7cffd6dd984d6cb00b, 0xcbb3c957434c100427944cef0acc8966ceb04cfc3a18b7c6f765a92ee8ac25b1),
  (0x70ebfbfb2201e05245b4862ea8d9bc825bc2db17a1e358a99c9971a1a43ff93c, 0xcd6c3f4da76aa33cde536c552ad8f03cea5bcae6b42d0219afdf64c792871591),
  (0x2d7b29027ccccc4e90b3ff9dac9059d4dd20dd99b1e706fdbeb5f6230bca6de3, 0x7dbc84f9b28a315649ae346a923379a5a5d947e08410680a8a090a59ce98840f),
  (0x9fc1dd77c58ad7fa50152ed83029f95eabf318ba3a78fb9bfd40d91654a1aff2, 0x2e995e359a84f125907b5b24ff3055b0b95046688f62b3a95fa5791513595c17),
  (0x2c3c9001acd27f2165726e3c2d95a75c95d0c1d6e86d96e387dacf697e9bbcfb, 0xbd62b88a40d4b8c65fee9859c4ef79d4108b7e2ca52216431deab5616c973f57),
  (0x1320c24f6b0cc9ec9512d0ea4bf2df11266a6df2b7076febb4dd29c4197c75d6, 0x613439c18f07988f65bb405e385aa6c98317c5bbeff9aaac6bb1e0e101a59596),
  (0x820ab732526bac624131e003304c28eae97f2820fa1b0e0dd730049f16a66e91, 0x4b2c87b5db2f8d498781476ef886a4cc54ecfffaadb10cb2b2ac9ef928714423),
  (0x87448f0367b2b714ae8521f9f596757c707d7d2158c6b044e857cd200a44295d, 0x0cf227782df4767d3c6442479e07664279bcced99122d3c113a9bc455ebcd58d),
  (0x68df2c34ab622bf57e15bc9a4fd3eaf6211236bfc5084a1d5e61aee471d444b6, 0x323b925d5106703bc48ac1b831497b1df883669bd7f34d739e674f0f59bf4f36),
  (0xcaa2528fc47394905c6831bf12173479effc521ac8482bcb22156f4274082008, 0x1f621ec37b73cef1433febad78a546efcf64dfc12d9bec0d84d2102a8f1b3c4d),
  (0x6023a251d299b5db833a811919e86b66162082ab01d8edf66aecd62737338615, 0xfdf2593e2c3d4ccdd0e058c54713de3b6735eb69ae749a44f5bb0c3abbf04b89),
  (0x5ec9322d8db5918c3e31b517bd9625ffdd52aacafa2015ee1b8f414efdd23667, 0xd21cdfd5891cedfc49755810bf08ac4282aa5bf361a0666abc73ac85a96f5294),
  (0xc0fc5e102674cd022435c5046532de93365d1a7c56ffa726918cb57b67f8be10, 0x3148c2fdfd55d3b8766bffff3fbcae221d436e5aafc506926e51fcf89cbbb142),
  (0x2e85a1611cf12ca73cd6db992525497789ff1092e419fb6b52c7fdc9233222fa, 0xed07e6b5140481a6642c1fbe27d6b19bea3f458f9d257c22add2547cdc810bc9),
  (0x60f30fee2b4bfaff02c936af708c1b49e59201220e8a9fd56ada1d4286d2e0f8, 0xa8c9d250f56a6b6639d54b2d7188defbce4c77673fd374d06637ad06858e6a61),
  (0xde5b62c5af2ec729a90d588b336507059eaf9dee6b73f24c58fc0f5eb24fe1dc, 0xaa60c4ee77a5d5b188605f93e17ee145868c19d5034435da5c72cfaed3c2b36e),
  (0xf29b382f0cbc9822373f44fce13895c9af4ef13ceb1d3049bcf5bfd23b60c472, 0x98035f44bf8a8dc2d7adf1097a191e24cf56ac9ca8c96f401bfcb85373efaef6),
  (0x6b0f5889a48ebdb849a0e79c6fbc19c1c57f7b0c5dc6c469f40a71b91e750c84, 0xf4a5ad2440bb73a30e4929fe33e08dccc3830111ab27de145d3fd084a07c4e9f),
  (0x7840fa42ceedb040364bb8861844478d288f09c667a1ce18de86c2bf490f97ca, 0x85e16ea23daa5fa7fc0c2e17481c626694761f1ea47c8b7d1269fdd25a631b37),
  (0x0a2a463cb5c02a876336f7dfdf6a865c0c2f6963f4d402d7ccd8603392491048, 0x21669c55328a8c9827f87e039123c1d7f0a2200266bad988b0e29be7bf2f12ee),
  (0x63e34ebe115585582f03fd58175a46f6d3d056cc63954df3186b980392f14529, 0xbc8da4b6e08d669352657616e8a9d667e872a120d401dbd1e13fedee5b80cfa5),
  (0xaac787ed995677da18dad378ecef7bff6773b186d4338363370fb9bb1b703e75, 0x0884ecd8108f7c0eb164154d8ee5eb73f430ad2073fe795e4801ea8b0437164b),
  (0x9c5a4b664d40cf4e92fd34fca35a68b9640631fe44f7b8d90e6ec0965f520698, 0x1436d53d320587db8d1a564a1a0a39b280e701fe3a320a10949454bf80b6783d),
  (0x9ba1cfa622ae82fd3a7aee54807230f9bc23a3c0e2455d7ef5096e6d6556c362, 0x2fc77d5dcdcc73cdd083179a66a72f128be85f4b842315c9833a057a99c5d706),
  (0x61f6c57a6924d9ab8ad6ab0d511270cdfb09548fe7ab108322b88a805616ee30, 0xbbf9f675c463face27c79c15cfaf1d03849f87c90df784a4a0f7bf7290aecb08),
  (0x63e4e91068f2aeebe5cee6ac6e43ecb318ce3cac42ea60dd91502c65765ba543, 0xbfc62b2a3f0420df29b9e738a18a50f696883e8b4c90c44d26234fa3c85932ee),
  (0xc739fcc6e07e76a22a0c9926bb2b9c0117115618fe05b8a3d22a7d906d3e1fa9, 0x013b9b26e2e0be7f84d9559461e927a306353a626a9063d8540e9157165e439a),
  (0x0c2af206c61f33406af5f22733af058315c0f94e093ebc2d4feaec3b973497f1, 0xbaa99337e8c6cd68e3010938c28153062e8ed017cabcbae0d25dbdf14457397c),
  (0x98fe977e3eba34ce5c14842fa5c3b6831e1b822b58df05df085131823b0ec7de, 0x24ee56e7b46fba5e495b2218623fc961e48d839abd0d427dfd2316c20d5e8873),
  (0x92d762b2849dc0fca723862ea8dcc943a7488ca5dfdea2889184a55b91e4de58, 0x5e0fcd85df6b41eab9de0a4530d8eae2581113fa0cada2743c444a12091ff4a9),
  (0x68e7dd3d3dc49d583e719bbc58b3002db77d062ed968d4106233ea68c094dbb5, 0x5c48a3b3c2f888f20cb0a2a77c99b6ab213117473c9e3c1b8d825740013a5e58)]

/-- precomp.rs, "1G..64G << 56". -/
def row8 : List (Nat × Nat) := [
  (0x6b63b80bac4fed54ddb595c763d4fc1e5eda799c39cbd686c7913e91991724f3, 0x61f379589a86967a9628745f11a92ca5737708bad0f1c9646ea0fc697e5fb516),
  (0x81d5f2713129dab03d153394c327bd3178322fa4efd324ef9af39b2caa665072, 0xb03bbfc4ea7f74e6f45a657a2d369d0faa40cdbc8536e717c72e0c42f48027f5),
  (0x32c6f30c112b33d4f10230b98ba816756f1a5bb0e0de572946a8c4180d738ded, 0x0709b3807829973a77c1bd3afa3b67766a281b47b459bf057559129dd8fffb62),
  (0xce8143ad7cb3ea870459453effe32afa38d69272ee1d41bf8c26b232a3326505, 0x50bf0d009eca85bb459a46fe6736f8ed6cd2d23022286264932ec1fa7e6ab666),
  (0x50824eee76943c003f1cba4021a9a6a2300414a70f537a940b825852877a21ec, 0x5322d64de4fb09dd6174416248f24dd7f953814893b4f3c0a0dbfcecf83cba5d),
  (0xbbd6a7d7c602df7277d2188ba61e36c5a9bef2d0f371cb84574473843d9325f3, 0x832b0b1da2e9c01d8bc625d6ae6e8298f49085ed6ed0b6a1ba3aa9028f61bc0b),
  (0x820cf3f8de0a741e4b93151dbea08efa800cc7939492dd2ba337c447f1f0ced1, 0x319c8dbe29dea0c71ad7d97245f96ee3ef92196084dde6caff1982dc1c0f7d13),
  (0x66e673ccbee1e3468f66ec543b95d46675922d4d470eb624d3ea38717b82b99b, 0x420fa3840bdb323b8c278bb6310a2ada3de9c1e6290e5cd36afe67c4b5f2b89a),
  (0x324c930f4620a510395458d0a674290cd74ee51da74b96200ae1d63b0eb919b0, 0x5970167d7090fec40cdd211b9b679ab84086e8ca9bedeeac2d1f4d19fbac27d4),
  (0x9343e87755e5c73a7d65364c57f1fe4a616d333a328c8bb43420f2c9faf1fc63, 0xb39a2afeb3fec326fc7c738009cdfc1ba36ccebf605336275795176be970e78c),
  (0x4613ab742091c72701f102e7c18bc493cc856e92247cfc5eb7ff1ba16224408a, 0x3316fb856e6fe3dcd2be9f437d025fc700a5317690337ec2aa25e89cc420bf2b),
  (0xf7022f7ddf159e5db7e7df2a56bec5a0fdf95e789a8e422327520af59ac50814, 0xfa0e79e73abc92997ee8aa8ad967dce68040188c3745116893eeeab1cac1fe8f),
  (0xee74c82b9d6ae5c6719b28d52a3bcbea339c31deb065193467332cfc2064cfd1, 0xfe4bb977fddb2e290b0d353eddb3028982cecf2c9d7190280927d05ebaf28ee6),
  (0x7756758a2ca1b1b54bf0098502ffdd56d226e27782f62108bb5bb990640bfd9e, 0xbca7e720073ce8f21e47a013af5cb008edbc546a8c9cd140c32b62a35285fe91),
  (0x1c20ce09330c29727b3074a7dba3ddf9b89aab6508e27f63e10b2ab817a91cae, 0xad1adb3cc748547418fc22155c633d19e6793743945ceb426b9917b45fcf7e33),
  (0x9a6b62d8a571df20e12d4b9324f68b49f888dfe867c241c9646f96796424c49b, 0x7f96a7657f3dbd16d281b3e4d53aa51f666f96329511fae281b4b26d179483cb),
  (0x2f21da478096fa2b6f9e090750237ed4d7f52107005a32e6a7f8b5bf074a30ce, 0x9998db4e1b6ec2849505c81c407c1cf8d18f77fd9527620af3e19cb4eec863a0),
  (0x312874a0767720bed4ba01104a78a6c7125071413f4f3d807e3389e5c247d44d, 0x9bb7940e070623e9a56b717b51c108e3d6123d903b2c0bddded059a675944370),
  (0x60e639fcb101251728c524584fd99dccf5954a92e68c69a0794e2d5984ac066c, 0x865ad32ec768eb8a4c4f28082a3b5d32e9ef6404f12fc6d7c2e601257de79248),
  (0xa2e25745c980cd011a860fc460bd082c037b44c195599b27ac02331b13fb70b6, 0xf140e65dca494b865b687270a1f24a32931bfb952d10f3d6ee3387a81da0263e),
  (0x090be4401cf713bb57f4008a49c228e5f99eaabb760fee274f4ddf91b2f1ac7a, 0xaa063ac11bbb02c0d6c7d20b0f1daaa5d838c2c2569e1af6ac91fbe45004f022),
  (0x7cc1e4248451080496f67b18034410dc5343c6698435da2f0938a42259558a78, 0x8581ddd9b843f51e9dcccb6eb33dd03c921fa9425b5bd59286a1543f16dfbb7d),
  (0x147ab1f3170bee114dc7b30acf3a6bab6d07e9790a5e97ab54935fcb81d73c9e, 0xf1f4e9cb088d5a49405df4b36ef13871fab3dbcb538a8b950aaf8e3d9fafdee4),
  (0xd9c341ce4dafe616e2926549ba93ff613b97b8205ce445c09bcd24d366b33f1d, 0xbbac5ff7e19d0b968bd52afec2fffb9fdf24b8ca605b953cfb30a76e16efb6f3),
  (0x81088fdb1554ba7d8473453055b5d78e6bd45143b743265243c01b87459afccd, 0xc0a630bbc9c40d2fc066060794bfbc11f9f037c42dc5ec10ada0a52c1e269375),
  (0xe9609d81e69bf1bff61242871ca6790cffdb1dab745071445efc797eab64c31e, 0x0ce67dc8945f585c51830a91fef7bbde9c750333e51fb417db89859500d24fc9),
  (0x1982daa16d3c6291643b6393648748f324a0e221c1ab0d669a730ed44763eb50, 0x91ab688db245502ae8346323de977f507a1783e17f36384e6f00a9f78bbc5549),
  (0x27e04350ce7b39d31028150efe7c352f0a6ef32e64b71229331ab6b56d0bdd66, 0x8df290bf62cb45492d729621709f3729fb2034d380c9feef2a3c8acdc1070c82),
  (0x314fb49eed91cf7bbb21f8cf0c652fb53b30076d5eddf03202f99f33fc2e4326, 0x1ada35167c77e771e5355557af30fbb02b9e3c23712a4575a013eca52f700750),
  (0x5ebf2c0aead2e3440f1b50c758d1be9fe85d19df7cfc202e45f6ecb27b135670, 0x0f87fda80428018816ab2e486c1fec54c703259256bab0ae1531fe4eabc199c9),
  (0xa01e4bd0c7bd2958bc3d8b95b4d834362a44a143ba667f91dc9f46fc609e4a74, 0x8f18181e96e0d4e6bf3983c6eaaac07ea79c6aa1a7c7b5987b18293273483c90),
  (0x983fd558e6afb813e0844f9fb0d59aa1e9a998eb0bf944968553d37c051af62b, 0x9f619163a6351782d7640ba95fd8623b732b22de6ea5ff2d9670c0ca65d69804),
  (0x71f01cf7ff13aa2a19c028d18943fb05ae419e732eb10f020bfc27eeacee5043, 0xfecb8ef5dad100b29819e8a37ddb795e67513309663184107790737e8887a132),
  (0x42a910af01a5659ced1a733f912ad0abb7c28a496f9b4c1c59f74a223021926a, 0x62c1c51065b4db188a6707a83c53aaeb2b57fa3876d70ac83842c6e07bd68cab),
  (0x2fb2f0f1103243da927d039bd5b27db6c3dfed12266bd23b8de2c1fbb2d09dc7, 0x2b67125e28250d88a0bd99c7729bdef7ed9327ce1f9f27a8f855a07b80be7399),
  (0x302e290960178a9d9e353a06bcc85cbce3dfe41fc31bd3b4784b26e88670ced7, 0x35bdd6a5fdb2d4c146ff9d19850afdab76447000aa2b3aac860abf11a6eac16e),
  (0x710c6b12267c4826608b31e3bc65ad4a0f379e5320af346ee82594b07e5c9ce9, 0xae2ff99cf9452e861f15598986bd23a8b1cec7930d0aa21551c966f971954cf1),
  (0xd6bf94a8f7cab54615d4e5f98586f06d263552752e2e9333d8dd953c340ceaa2, 0xcc6f9863706da0cbc444de8a24389ca052740ab3ba095af733c59a0ab76a9af0),
  (0x31d6152463d0b5f578350d4fe683de9771c416019585c749b5a741a76b2515cf, 0x8c06a0b622b4de26e920de4920d84c35aac927edfbcb2a5b7a0cc5e1fbce090b),
  (0x940304b25f22705fd1395616960696e755851fedc1e6e55bd34dd58bafe7ddf3, 0x09215b9ab789383c121862120ab64a96cf1212820e7cc9816f43f861b0a2a860),
  (0xe01d3c3491d5355130358f5832f7ea19c5832fcef03ee760311eb30537387c09, 0xe3afcdeb2153f4a5312abd257af1e1c734e71e8ecf4fa4c11ca5ee41da48ea80),
  (0x610dd39989e566efc0a66b0489332de50308d3f48c4c836f9d5c84d700235e9a, 0x29738198d326b15040afb488e74a48c584cbb3fb20a2c0dff8eea460d1ac1635),
  (0xedd645677e83426c53514bb41f88c5fe60ea4c0555a262142a17747fa6d74081, 0x969876a8a6331e31c5bc3ed2697840eaa12fd0ce68dc115ed5d6cbec96460b25),
  (0x501c7317c144f4f64bd99ef0a03b8b92f42297054ad4139360c36217472ff580, 0xd1e184b13898d0222d587011321a36606d5e594c74c5c6be159009b318464945),
  (0x663629537c2432369419daf048c0a9a547fa1e2b45550b655ba047524c6a7e04, 0xbe3f08590f83f09a599415a566c2c0c0561b6f9a2b646188cd0744b15cb12a88),
  (0xfab5b31f765c70dbca8b71f3d12c7a9401ae38c726477d0d9141c5beb92041b8, 0x7f7ad0821e45a38ff8dbeda87d460a378595a310990d134976ae7492487443e9),
  (0xbab2609d67cc0bb74b92ee3a6eb38bd5a3dd492ae6b9c697ed1d4db61059705a, 0x2517ab66889d6b459b18959e34d26fcaeff2c56e13e6b7e37fc4fe896e70ee82),
  (0x121487097b240c215aa368aba73bbec069958465f366e401f167b4e0bdefdd4f, 0xd67f59517ef5212b5f50a80e130c4361cb4d73cee1fe53d1378c323318969006),
  (0x5e56937b7e31a7de44eaba4a032397f5b2e52e295566d2fbf145e21e9e70c72e, 0x03442dae73ad0cdee3552fa760a8b755bc2e954aa8b0a38868dcf517456c61e1),
  (0xc621dbcbfacd46db8b8c853586a3de31983545e8787baef937ffe747ceb26210, 0xf0cb3b3cecf9bdf03a11b77162cdad96a3514c37339d471c82e442e959266fbb),
  (0xc8c2bf8328817987a97e81f18a677af67547b5cfbda353423fcbdbce478e2135, 0x4c1d8afc04a7ae86106aa2fec77b4cacc68d1f05c93b45cbdf07eaaf45580985),
  (0x67e0606ea04edfa0da253decf215958a5b234b5bd4b22e74db41c3fd9eb45ab2, 0x53ddf9a89959848edfc4b6af6839f6b4f352f175f6f06dceabbbf070ef751b11),
  (0xe51e4e6aa796b2d82f055d235f49c7f790864ff0dbd5d1b6da49c379c21520b0, 0xad60d9118bb67e13da1d658832c756d05ad53c37bca7c620c361a67f5c9dc340),
  (0x8effdf0b82cd8060081f7415c30995244a27fec1078a1821d6c47bdf0eeec8c6, 0x5bb39592236e428672ee56eede42b5298821b358d319a901db70ec1c65842df8),
  (0xfdee4dbf1b601324701d5e0c5a02d962f9fadb5bbd8e81f7d1183316fd6f7140, 0x562cdef491a836c49ee29da73455449a04e3c2c3f48c0012bed1740735d7620e),
  (0x348abb8f289f7286948fda2457bb86dd617125d8ff88d0c28f682a5f47701097, 0x66588b4513254f4aabe0e51c30c8f41ad51ba28e4684d160eb10eab599d94bbd),
  (0xa970de6e827a7a6de44d60ba8a11de5649883ea8610e815d147ebf01fad097a5, 0x6820bb88e6a52e9b1375813b363e723fd833c657012140572be414245e17fc19),
  (0xebaeb23d6ae7eb6454ba8790a3083c12d6a0a9ac51fbf6bf7e7f6970d875d56a, 0x9a8a927c4fef46357b73a027c802cd9ef1e74550026bf40ba8685c3ab99a907a),
  (0xde3f57db4f2ef985e1dff4dc4ae38d84c4126ebbde4ec091e1b6f60c08191224, 0xa304ef0374eeae278ff105278e1d13f57bf217a0859e77f634964337d446a1dd),
  (0x251e67297889529e28205ad1613715f5db007de37fad982bfc6f5e47d19dfa5a, 0xc474356f81f62393c8a15b7eb7f410f5f818537d271cac32727051841ae98e78),
  (0x43e514e56116cb946e8c38fe909a8ec6abe060acdbf4aff592dbdc5ac242316b, 0x0756c3e6cc6a910b5283ce7913adea3d1161a880f4b5b3572078fa3807d784f9),
  (0xbfac0dd048d5b8d9dd8dad47189b45a004a73b2956391db160bcfe01aaa79697, 0x719b3e871fd5b9139ff4009266550ded6fa2fc2d207bd3af34ab3af57d3d2ec2),
  (0xe7050b06bf669f2134e2c5cab26769370cd1a70a73d2b24ea573a4966d17fbc7, 0xde2646e4dd6c06c858cbd4edf10124c5a053005197662659fbe948b61ede9046),
  (0xb54660db136b4b0d56ac3fb20d8e27a3471b7e906bd68ae2332f81088cad38c0, 0x495173a8af60acef4540b977ce6ac17c44dbffeaa37799ef123a1e11a6fd8de4)]

/-- precomp.rs, "1G..64G << 63". -/
def row9 : List (Nat × Nat) := [
  (0xa13e2c37695dc6c8006f16ec83f1edcabcdd4863158308e89ebb284d391c2a82, 0xa52b540be1765e024252face68651c44a8765500a6b48f982ab756f04a057a87),
  (0x2f5e6961fd1b667f9241cf3a57c62c8b0d5cc16c1a6234994f922fc516a0d2bb, 0xf648f9168d6f0f7b04911b37071fdb523d20b44d609561925c15c70bf5a01797),
  (0x828c5bd06148d29e56fc6f09e7ba8ac425860a5084a9d8696dc1acafe60b7cf7, 0x2c4c0a3570b67c0d94d5045efd24342ca527f56cc0117411ac6b435edc55ae5f),
  (0x13271e6c6ff632f7e08805bfe5bff5037d25e062e3c6fe8a027cc8b8fac61d9a, 0x5ea60411b62c5173ee728bcba10a51788957c32d701ef42655dca6c0232f76a5),
  (0xe60cf82ebb3e91026265c5aefcc486269ea176839301bb74fc4e964ed0b8892b, 0x105c27533d09492d60adcf583f306eb1235b59a18deeefe257adf797d4df5531),
  (0x1f3338edfccf6012c1e9c1d39b3d5e761cb69c83233dd1e74090914bb5def996, 0xd66c038d248088ae6e984240eb5fe290acf4c2c72f00cd21b1e95d0d2f5378a8),
  (0x740461e0285635d98fb54de24333ed02bdb802ef7314bf7e804d264af94d70cf, 0xa3d814be65620fa44eec6e2e47b956c1ea762c833fdef6524113b2c8365e9383),
  (0xae0341bcc0dff48cebd4fe1c78412a68181c0b16a91957709ad5462bb4d8bc50, 0x62c9d27dda5b7b685407151ad04c24c2f11a6dea8a24a41bb6bc45cf7003e866),
  (0x7b4e1055ff5328681578e73cc84d0d0d8594c54f8b07ed692e96423588cceff6, 0x186ed7a81a84491d9ba155a658fbd777bf4b9d5514289a54a348c0d5b5ec995a),
  (0x4a5ff67437dc34bc7f534dc87ec4bfa1da98d121bd00c24bd4992b30614c0900, 0xec72e27e4205a5b6fd56cd09e3cbbd6e38cf289380a6d20868c196b81d7ea1d7),
  (0xa4cde9632e2d432b86ff676f94f0e6097aa5f9fdb43c52bc15ea68f5a44f77f7, 0xa239c13f6f7f7ccfebb40411faa3123184137d0e8a3f5ec88cafa0c0eee470af),
  (0xbb6b6e1bebf56ad3df04e891c4a8fbe0867983288a826dce32865719a8afd30b, 0xf2beaaf490794158018edb95be96c43ed76c3389be15baf00a695b11471f1ff0),
  (0xdc9c964231fd74e1a2c41272356d6f2e5e82908ee416545d152db09ec3076a27, 0x6b6eb67164284e673a0473c4bf5e2fa0e29ecd7605a2274e66ceb88d519bf615),
  (0xc0aaee17597f8c0ec2dd14993ee1c4a4ed4e8652f17e3e61e8b97932b88756dd, 0xad55e8c99a042ac0adfadb6f20adb4366563c7bfb39ae87515c4edb96c168af3),
  (0x6813e66a572a051e8dd7f7e3ac06028210dfa466a58acb94975a1ed8b76da1f5, 0xcd7ee5379b670fd042484710dfab3b87b653d65650cb7822b4ccae1e350cb901),
  (0x0f835f9cfb2a2abdf535af824a1675888009eb5b8f910c1b0a50b12e523b8bf6, 0x029d4c6fdaa2d0caeb3f5fb066ac02b0c797df2a169d383ff59b29312afceb62),
  (0x83387891d34d8433b53466308d2d3605833f5c6f56783247d4059bc1afab4bc5, 0x01b7f21a540f0f11081783150809aac6bcca1099afe3fce8d973b30fadd9419a),
  (0xbce9141b0e4f347a88598d4f60c9e55aa62f648fa3a1c74165c29219909523c8, 0x7520dbd944fc78343c076e229191476c0210da62320475b69af97d8435f9b988),
  (0xda389396ed11fdfd72855540805d7bc4ef8a65bedc6509386a6b2cfec1ab1bbd, 0xbb8d4c3fc0bbeb316af7d148a4f5da9411d67c54b45dff35a9d5bd3674660876),
  (0xcecf127601cc84038c33345cdc2ae9cb1e4ef88d770ba95f87a7ebd1e0a1b12a, 0x368fc88ee017429ea3ef5a675c9661c2fd90d0ad35c33ba4687c012e1b39b80f),
  (0xa203d2c866eaa541ba01000c72f54a31931b9817bd5b312ed30c6761196a2fa2, 0x2781b3c4d7e2fca3f2921574521ff643e37d6c2c3e606c02f2abdee098939db3),
  (0xe77057e45072cbb99233188de34ab39dac5a38b97d3a10cf664300b07850ec06, 0x5620a4c1fb8507bc4661a26c3ee0ca4a4cfc91e81d97de52bcf0c042b59e78df),
  (0xbe5ae52b63db1d72306710fd15c6f156ceabc5d51540e82b4b44d4aa049f842c, 0x0f78ebd373e38a12fb69bb2fdf96447b57e388f031144a7006f1e7e6334957f1),
  (0x180ff42e53b92b2e53e16ebe09d2f4dae6d4ce997472bde1b82226052b7ce542, 0x55aebf8010a08b2818aff74f5c14a8a23803d6f9422c46c2c59bcc022c34a1c6),
  (0xcd185890a2eb4163584e6a102a8c860d32e6eff72be570cd66097d587135593f, 0x03c612df3cf34e1e59ddbb4ab8c50273d42c6b70dd8447ce7ceae99d6d97e134),
  (0x8bf546d9d19228fe3ec2d2bcbd986c0035216f3918f0e3a384b9ca1504b6c5a0, 0xe01d5ceecf443e8e2cfc84b4eea0bfe7366ce718502b8e5ad1c655a44cd623c3),
  (0x35eccae5240ea6b10bac4ccecc559a04dfb3c3d192d40e988ec045d9036520f8, 0x57e09d0ea647f25aa3765801ca26bca0547972a5eb699700180b32dbf8a5a0ac),
  (0x0564c83f8c9f1939e6e6d91e9ae86ebcb80288bc5682e971b956970e2fdd23cc, 0xe12d656b049642630b03cee5a6a158c3e893752b049c28e2551932a239560368),
  (0xa3f37556c8c1edc34f24d30ae48daa07c719b6a245044ff74b47554e63e3bc1d, 0x72b1aa239968c5f522e275a389f1fb4cbb1a1824822ae4e29a47bf760700d360),
  (0x4b0c591b8d26cd0fd42415091ad07aca9b392f43bce47a09a75feacabe063f64, 0xebe79af7d98021da1de9e8770691a2af63aeb1ac4cbf23922d42ddfd92f1169a),
  (0x6fe8bd2f80e9ada0efb640bf1831be1ff0a98ad7af01d665cfdf2a4e40e50acf, 0x666466bc45b201f25de2d2ab9780ff4f170f87598308e08c94c103a16cafbc91),
  (0xf0b1d09303bfeaa93483bfdea85f4bdf0f2e400af2f142fe58af2010f5b343bc, 0x00bb7742e5bf663647be92adb438f3a6e943e4c93dba10972ea01b95c7081603),
  (0x53a9e4812a256e76ab48cedcf1c7d69e9d0e55805584455f136b7083824297b4, 0x21d4429374bae294a65cd5a48d7f5492dadbbb848fc407a70402b0e065eb2413),
  (0x120770861e6af74fbb087b722905f24437ae52eace872e6266917ce63b5f1cc4, 0xffc8b47afe6350638cf2b7046038591c827510e3b638ca1d4b644e491058edea),
  (0x4270352a1127147b610c107e9bd16bedbd8647429d961b4b3ae220e61b4d5e63, 0x9a08d536df53f62c068a762235dc5f9a50dee01a1e36cb427d17ffe664cfc50e),
  (0x2ff7a5b43ae118abe073694ccacacb36d93006f8c2263c9e4ed714576be5f7de, 0xbc615b6f81383d399cc5f271b198d76df156a39dc2aa6d523cce53f1cd871236),
  (0x3cde4adfb963acae31e5bdbc58d278bd58c77538ab910d91a54538e8de3eee6b, 0xc1141f03ac6c283da1999458ff96a0ee8ca60fa0a989ed8bb1881fd25302169c),
  (0x090cfd936c9b56da3c9c15ec0b726fa033a01653396615887677408d6dfafed3, 0x1e293b24c83b1ef9cc51674a1e207ce83469eadbd21129f1e34f4baea3c40af5),
  (0x873554cbf4dd9a22e7980e346de6f9221900469590776d3517173d131e6c0bb4, 0x2c08d7b430cdbf80207f27713946834d4d93651b3032c0810316c627cbf18a51),
  (0xb7f5e2fa5f62f5ecb2e460e27bd042ffa1ed9c07ecf7b4a2137a4fb486df2a61, 0x93bc919ce53cdc9f67a45fb1f250a6e175ce0a7fba63eea77aa6ec6bcc2423b7),
  (0xe3e291015838aa835f4c2b9633cb1a782372ff6f7859ad669271f56f871942df, 0xe61a896266a471bfbdf132e86720efe02a2d70d5330198cea7ed1611e4e8110c),
  (0x36cd7685a2ad7d32643c768a916219d151dc3cb73fd6e902796d3a85825808bd, 0x4deb57a045107f8df0ac91dfbcd2ebc76494c87edba29660e3db9d05b22922a4),
  (0x29ed0ed9d6d34eb0cb1f50c605797bcb5f71687ca5c2c51d42271f59c3d12a73, 0x93fa2fed0248c5ef5b163a43712071674956eeb597447c46e5fe5b474683c2eb),
  (0xe1e6e62658b28aec526e80ee27ac7e62a77797c114caa2c967930af231f63950, 0x2864d0edca806e1f94ecaf18eece51cfaf7752e06d5f90be636178b0b3c9fef0),
  (0xa24de3466b7599d1c77792196a60bae05a42c316eb2912936de2e38397c69134, 0x1033860bcdd8c1159f16d40eeb7974cf989005862d501ff049d374aab75d4941),
  (0xb6acbb468562d1fd1dea026c4859590d9976fb88403b770cb6c69ac82094cec3, 0x7d919966d749abc8c6f5319548d5a17dc3190a3697f0891d7cd6c46144569d85),
  (0x605c31976145dac2958c3ca8be94022e7e5410c82f68341965104837dd1c8a20, 0x677db2a8e65a1adb10b8f87c9481277f1d7127c5595b12343fc0750101683d54),
  (0x054d652ad1bf412896760ff1ac598bdc2a6811b7012a4350ec2fccaaddce3345, 0x6c91c8257bf033628c95928c1960100fad7f397133110fdf0a1151d492a21005),
  (0xb93e4b2ee7bfaf1ed223eaa50848e32efdb27b59ca27204bc8c8b2a2ce309f06, 0xf141c1e60d5c4958c888ce231a979707317a666ac015d573c5308ae644aa3ded),
  (0x660318b3dcf4e8428cbb47b2a59e5c36858dbadeeb999595b53b7de561906373, 0xa465311ada38dd7d1587633aeeb2130df399daabf8c8282abd161ccd12ba4b7a),
  (0x8096a89190e2fc29874103712a9144283c5d0476ad64c1715f75eec864d3779b, 0xe68eded4e102a2dc52dbb7f3c5b01f6c90bdd6dba580cfd6d3d2ae9d23b3ebc2),
  (0xe990b4e407d6ef31345ed9886417a48e26c3cc517386b77917785b7799eb6df0, 0x3a4c3313a002b90ae327459ce2eb4206239ca6a559c96e9a0f456b7e2586abba),
  (0xec7bfacf349766d592c1f613f5a784d3ad5cad2f85c251dd2a114806f6a3f6fb, 0xa60c43d1a15b527f192e27207e5891063979fe84c5a64b2d04b3cd333e23cb3b),
  (0x404ca6d96ee988b3f28a2ce8aea0a8a9cc86ba92bc9672742dae9082be7cf3a6, 0x30b23616a1f2be87a163b4600d75ddc2f56297f144e79bf9fd7e9c5d005921b8),
  (0x2a3e7d01b9ebd033adba00112aac4ae07ef8cfd0e1bfede14b070d21bfe50e2b, 0xc8798114877793af8912b820f13ca8c9b500249e9c5d2de3995277ece38d9d1c),
  (0x55187a5a0bebedcdd93ededa904a673807b1f040911178da19e6125dec3f1dec, 0x50c3db2b34a4976dfd317a69ca99f828f449099ef170b391f7d04722eb329d41),
  (0x7842a9370d98fd1378e5293bf1e593d4326caefdaa3ca05ae9ba77843757b392, 0x1d01979063fd972e997d1e51e8f0c7fc373a9df606a8cd05e694bf965f96b10d),
  (0x5fc047a6cbabae1d1d3eb9772d08eec57b67bad977a8aeb70064d8585499fb32, 0x8b687b7d0b167aacad6b4e282ce0608d8862201bc43497e40577d159e54a64bb),
  (0x1ca73dcad5732a9fa1862e103fe5c42b24dfe62da90c3c386ed4d3678b2ecfa9, 0x6efc172ea7fdf0924f2bde7eb0fd90cd674976abf242b81f35f038b776bb87ad),
  (0x5f232b5ee3dc85ac6789f69ca85217ee5a2459ca6cf7ae703806b69b92222f1f, 0x7bd63ba48213224f10a0cb13aafcca23124b4e473197eb31660e3ec548e9e516),
  (0xc3122eedc68ac07358ab809fffa407af6b409c9e0286b461affad7cc290a7f4f, 0x76bba5da39c8a851519bc86702902e015d9297943e2a581117bf9e504ef24d7e),
  (0xc78e66a99dde6027fa32107417d426a44b6af58d66b8d418e9f9669cda94951e, 0x985099b2838bc5df0ab55e5c58c5c897fc659d38ff6023300516c0834a53b964),
  (0x4954ac94b8aaa2f7fb6581499283fe08712b27286ac1da3f061d9efcc52fc238, 0x14ccdbf9ba9b015ee4f9d37d23d1af5bee8ba98eb89926b085c0ada47fb2e74f),
  (0x69c15b35513b30ea061b2821c48c867d4e1debae65405868b674481b7bfe7178, 0x4e07633318cdc6754b82bb35233d9f4de5e29f5d1220b1ff3b4a166636871088)]

/-- precomp.rs, "1G..64G << 70". -/
def row10 : List (Nat × Nat) := [
  (0x0ff71880142ceb81f85c01df13339a70e8cbbdd5f45fbdeb0d53f5c7a3e6fced, 0x2f9526f103a9d5221cdbebd2f18bd26e5fb32891ba0bda6a4c4e8774bd70437a),
  (0x0edc4d24f058856cb9dcda366f9cae208b04d7257612efcd40ce305192c4d684, 0x50b62c6d6df135a9d41b4487379bf26c3de81295dc09dfea64f2e6bf85427900),
  (0xac11118a15b8cb9e18b9098d4c13bd35c416b0f690e19fdfd4f8e3b4c72dfe67, 0x34097747611365377ae3637e30177a0cbfe0602f89f356f4f598a318f0062841),
  (0xe4645d0bb52da9cc8c4ffdc6ed70f8ca5f5efd3b91042e4f0db2fb5ed005832a, 0x815bfe3a104f49defd4aa0d2e398a08452c8f0bc4e1172059596f58bc9001d1f),
  (0xd0b35e6ae5e173ffbd00b154e4d4e604f72f8f99e8433aab97e5443f23885e5f, 0x3c8b1a1e73dafe3b6bdd13973da838323e3c665b88761ec857b2a0489164722d),
  (0x386a67d73942310fb42e409eb0dfe8b8be600ab9521771b34497ace654317cac, 0x83ebd5c8d071c6e14d60f5a193c4be32a7cff142985dc52425548d8d4431cc28),
  (0xcfd169fcfdb462fab3868d6179743fb39b3ad3965bec33e8ba3a80a7b1fd2b0b, 0x47e6961d6f69a47404fb9e6cc6c3e1b255dc1cf1e42d3ff8d3b499d79ce0a6af),
  (0x2f6928ec690bf7fa8c3daa517b341b4fb38e754284d4054954eb3acce548b37b, 0x3cbaf678e15c9985c04e67e74bb5faf901be1c5510adadcd0496b32386ce6c41),
  (0x03452936eec9b0e82f81ddf1e58fee24ba1aa47ae7dd30aa8cd1214550ca4247, 0x5ac86d5b6e0bcccf9ea640ec109483619a2919af15c3d0e58bdc3b81243aea96),
  (0x6f1bcbbace9790ddb07b08d2c0218b64aed3e837c939719cf892d918c36cf440, 0xb22fe40a67fd62c5f84941aa0dd5daefd89007918ac1f9eb4a84d6ed60919b8e),
  (0x3d57eb572379d72e5d050da437b9f454bda2fc8f8e28ca9c97e15ba2157f2db3, 0x338f14b8ff3f4bb732bb76f6f632797401648ca2e11538cae9b5eba2fb5ee997),
  (0x8afcbcdd3ab8262d0ba5f5398751d8c29c00090d7dfae958524d226ad7ab9a2d, 0x639efc03b06c817b9feace9320862935ef51263baebc943a57392729e99d043b),
  (0xd7b58f495062c1b5f39ef1ad78d75cd93f25a9de84a37a1e1fe054b366b4be7a, 0xb6a8e2b1292f1c0a5234d31315e97fecf718ff29e8af51e76f74f9a9ff563436),
  (0x51fe178266d0d3928f03d64a28746c4d956ca322ba092cc8a7f53aa8327720c1, 0xa7ab1de1620b21fd245dd62e0a104ccc60dccc5c6da2e3b4d19b34db3c832c80),
  (0xd686123cdb15d7445aa3c61442a9468bf7b75783b15ee71cb293ae0b3893d123, 0xfb6a20e7704fa46bac21911077e5fad76fcd72c8a4e6a4598c616891a7ab4116),
  (0xf3b2575ff4d1cc5eda6211a1f7026eadcddb688932148379e839be7d341d81dc, 0x59a60cc83c07d8fac5acb1ed41a50ebc83879a5e61d5b48340cfc8f6a7a73ae6),
  (0x17d6af9de45d152f8bcf3b0bd46e1d072b0d79f012af4ee91b73bdceb1876262, 0x702614f0eb72e398b0833a5bd5999b9d43cbbd9756b0bf5a735204616d736451),
  (0x76dedaf4310d72e1da22bdd3deddafad40200e77ce6b3d160aadf01a59c3e9f8, 0x87b6a2e7802db349a1a4077a7d8d59e96ba81291146dd5a549ef807c4bc2e88f),
  (0xb582b557235786d03978d3aefcb267c5f499ef1f06fe4b1dd56799971b4e598e, 0xeaf53900ed2fe9a963b5ffedcb571ecd4c3de6a28480241d32b3b2ca1715cb07),
  (0x0f2386ace983a66cfe0b0491d2b427b91cb837229e0cc8fedec98d4ac3b81990, 0x7f8063ac11777c7f77233853f93e89e3a2f82b2e59a62ae4930c4d1eb3291213),
  (0xc586ef1606e40fc3e6fe701a236e9a846f4546429865c754ff0eb56759ad2877, 0x30d0e5fc06cbf852c98e1eb4da3276a0c8b42bd264da906a3f62b6e024bafad9),
  (0xf86b599993ba4ab966097629112a39acd754d5c78301cbac1b6b2ae1e8b4dfd4, 0x227d16d7d6a433231469af553b2505a50473b1a8c2fafeaa26c9dea799f9d581),
  (0xa721dfeddd732411953eafeb09954e7c52bf3bb51f1374553316f73cad3d97f9, 0xb4e7ef4a18e42f0eafb355aa17fa60153411321caa3bd435b4929821141d4579),
  (0x0a78b17338a214953f62ecc5a5db6b65e1c48c707f759c18604ac97c59371000, 0x544c6ade60bd21c0462557b4a6b4840a70dc04f6d89c34006be1819dbcc8ad94),
  (0x918b6ba6bc275d70fe939b7511e4994ba7520dcb313da2106a00f24e907a544b, 0x4818ebaae130a54a60145567f15c13fe707a9816fdaf6c42d3e5e0fc644be892),
  (0xaa2e6ab02db8cd4b4919cc88c3afcc98dc5267fdd7e7c77328aad3ad58d2f767, 0xfb5ae1cd3dc788b3678dd178e43a631fa1cb92c519ffa832d46fec04d0c63eaa),
  (0x8d96332cb956be01896e6a13c417c01d7992bcf0f06dbb9768b4fb906e77de04, 0x4072690f21e4f28152c29407565f113799a4d915fc98c8a5902fc93a413aa2b9),
  (0xbcf86623f264ada0bf471d1ef5f56609a47d2ca98ad98cdc36e607cf02ff6072, 0xd28fb8afa9d98ea68189635fd4a61435c98124f217401c6cb70c0687aa9e5cb6),
  (0x150467db64287dc1437deb96e09b542388cd5d87a2da44beb9a67c2a40c251f8, 0x7b3e67f7e9f97d96bb8dd3c2652d202ba79e9742f1839a3ee161debbcdabb839),
  (0xd68bd1f839aff05e369295dd2ba5bf95ffa13e8eca1d0d455aa5d78fb1cb6ac9, 0xc990a056d25dee463fcf81d27b7da97c543a59b3fc3aafc1af0d86f926d783f2),
  (0x46ba42452fd205e8774a4a6f47c1605cfc9af71fae13d8633e6775b8519cce2c, 0x49e5918e922f0024f53816f1334e2b421e7246416de1acc2a06feea4d3fd524d),
  (0xb915ee221b58391dc70b01860172f685cf12cc01b3c1b3fb439530b665c7322d, 0x80a1c1ed006500e77f46597be4d3d05087dec65917b8ffc49afdf03ba317db24),
  (0xdcaeecf4a9e30c406dae0a9263362426fb5e9c9a5056014884902a9678bf030e, 0x18168ffb9ee46201ad186898ef7bc38199181152cb985b9dc0d887bb518d0c6b),
  (0x1833658271e61016eacb03aaf23564e5bb279e2651407c419a04cdaa2502753c, 0x2733edbe1341cfd1efb601f034ee5867b336e18dea0e672e8684b8c4eb809877),
  (0x4791f2160c12be9b923762378502fd8ee6e981a69350df88b15e809a26025c3c, 0xc266ff7ef25c07f27c0ce882fb41cc52ec8631947a974443b725678925f02425),
  (0x9c27ebc46801116e5c4d00161f3716ecefcf628cfb9579b43d4da8c3017025f3, 0x75c3dffe5dbc37ac3ace6df68c2373b7fe15145247004c575eba0ea11da1767e),
  (0xd9889768f76e9a29715a3295451cbfebb679c8412f65ee0b3dc32a73ddc925fc, 0x097b26623803003171457d7c9f5e3ea7e99146c400894d79ec20ce7fb28ad247),
  (0x13e3172fb06a361ba63ab386283856c3319decb9438f473adb7f6ae6cf9f82a8, 0x06f61f7571a268b2c1227ab287c22c9e2dbc27c675fba7522959f8dc7d5a006c),
  (0xa5c14ee75bfb9f13297ae0bcaeaab2d5aca838120aadcb1d1b6bb97104779ce2, 0x0ab6c37adf016c5e1eeba1d486c9a88f39eb962c173759f6aa00c583f17a62c7),
  (0xb1e7018c748160b95068d1b1d3810715246c20d6ee519165a2a147dba28a0749, 0x83ddb707f3f9b561eab539a8fc91a7daef7fb1ddf3cb2c1e03f5b1faf380ff62),
  (0xb5f83f85e55741dab0de36352976879ca7cd07f2063f6f40c550e211fe7df7a4, 0x1e155d965ffa2de34ab2b9c2cef4a5646fe2066f62819f024ea9d25ef3d8ac3d),
  (0x45c34d6e08cdc6392fb2b6bf04c646374037665b8513c31b0eb0a19bc3a72d00, 0x7a94e9ff8a06c6abe0eda2539021d0c04dfb8101fe3667b856f1e10ff01fd796),
  (0x2fa6b43cc6327cbded7eeb5f1a1ca64eea20e4e5ec05fd102d3bb0d9bb9aa882, 0xf16dd2c390141bf8d7e5ba3960e02fc08c6bd5ea3a34079bb577e3cf3aa91121),
  (0x03b606435dc2ab4089d7de754bc3eff3760883fdb82f0f66b57276d980101b98, 0x97ca72214552cc1bdd0f7921774f03c3f2f1e862bc3325cdcd6e53dfe05beeac),
  (0x32738eddbe4254429fda4b40832c403ca20915dcf183fbeb5a0d6afe1cd19f72, 0xa18be235f008862831359d7f570dfc934b5aff4228bbe1f0469a1df6b5eccf1a),
  (0x5cecf93db82a8ae22c5c5f46abc5679734c6137473cdf8bea5b30fbab00ed3a9, 0xc2d75471474471caf28f69a0c087a9c7d23d45831a5c7f3d7d3dbe41a968fbf0),
  (0x8b84a8eaf7e2ac06d64535e1f24578926c943bbdb1ca6bed36ec9f4a4eb732ec, 0x34a527b91f67f0a24bdd0076e4305d9d12053d7e0ed04e57e0936cd32499dd5f),
  (0xac9579904051c4356bd2796f35af2f75b15347a1658b9bc7e79a4af09cec46ea, 0x3f0546730b754f78dfa113373753dd415d503c2e88514aa32669dda3c33a655d),
  (0x4222b6eb0e4aea57fa0f072f3a037899fb0023c83775006cbf185677496125bd, 0x6dfb4f412d4e683c5315591a2cf1cdb8b6eb04f84837aa6f3dde5e767866d25a),
  (0x5b45f1f4b44cbd2fbe1d4a3340ea49489604d9f705a2afd57e923ea448ee1f3a, 0xd65f33c212bdafdf8ad62f69df0e404ba7cf9ab863d68ff75faf83764acc757e),
  (0xd95867efe6f843a862030d2d2ce681486bf5463b8e39f60cc365de15a377b14e, 0x2d4e25b0f7660c8ac9503db3416391690bd2d8c14ab55d12d39a0244ef5ab017),
  (0x1ab18bf17669ebf59fbca1138d142552fa3baf8c68616919760cb3b5e224c5d7, 0xfe9459a8104a9ac1595bef4995e8908004cc0bf3cb6cd15455e6f53e9bdf25dd),
  (0x4150ff360c0e19a762ed8c35b351bd4bddea65e1f7de8285ad2d89cacce9bb32, 0x5d6aaf6a072625177ae110d4855b1f133bf21f71203a266c86e3c801345f4e47),
  (0x1e990b4814c05a00c7d8deefc744a17b6000e11d7ad7a5231e0f12e1813d28f1, 0x8bccfa656a3a6946b204e7c3893dda88696241d146610d6368fddaee93e976d5),
  (0x27de5f158fe68d60e3e56bca4784cf93701b4042ff3658b1b59425b4c5cd1411, 0xfd5487485249719d6fa73cd14eee0a8addb10311a40a730d4ab9cfcef8d53f19),
  (0xf98a93299d9f05072e2ed2090d9e785473c32db4e7f9543849d66316a8123ef0, 0x64ed4bc4e8c42dbd7e3202cb774a73079a32ba1475279bb2c5d33cf60c6aa20a),
  (0x9237700725f4d126d426ca04d13268d7b8021407171d22b3c20f1a06d4caed0d, 0x5deb5a50e2bab569c0c07d313fc858f918461b7af82369ba4204cbc371f21a85),
  (0x7241769695468321f21071e43cfe254ffdff842408437f4bd5959d46d5eea89e, 0x6fc0da312602873100c9a376a078d8472d143e3df1965dff5d8288b9102cae3e),
  (0xc19f54516c4b586b2c826442d04b8e7f66bc72185e5b4bcda2baeadfe45083a2, 0x7fb17de29bb39041a403a8ecc73884add9954ecd7aa9dfa160182c495b7eeed5),
  (0xc7b8aeb5056092e69c4673ef1c4793e53d18c18419c4eec7694b64c5abb020e8, 0xbfe115ba4b8e028b0d56eeaf55a205c9224ed5ecd679b2f63aa1ca43f0f8c16b),
  (0xc1277b7878ccb823985af7696be90a51f91fbf94759aa7c597e608493927f4fe, 0x4ec971f47aa2d3c109c231754ca4454f00df7de0928da5f5395b656ee7a75952),
  (0x50d60da16841c6a237e09c665db44bdc63b7be8a3dc9030645c3c507e75d9ccc, 0x017f5de95f42fcc89c331a663fe8013d387348797ff089df6f9b65ee08df1b12),
  (0x25d84aa38a03752a38131dda9b12e174c9f781cef9fcdb1843077866e8e57567, 0xb7c4b46c97e7bbaaf7e8ad31a87284c71564008b92bebba545e09e094d0c0ce2),
  (0x22aabc59a6a456705e3295a64e9692850426c4005ea8b6403e22a7b397acf4ec, 0x46908d03b69263682216a665104152ba9a6168bdfa3182edb929714c5f5942bc)]

/-- precomp.rs, "1G..64G << 77". -/
def row11 : List (Nat × Nat) := [
  (0x609d210fe964935e195c33e531ffe89e967747a8c72725c7a9f5d8745a1251fb, 0x1084a333c8146fef2e9ee04c5693183caf9b5b960426469dcafd6ca82fe12227),
  (0x148ff65b1f832124345057f0ad2e39cf566eaff35056309096649933aed1d1f7, 0xc86fa3028fbc87ad2a2676265361aa0d319bec84520c58b3042e89d4cf94cf0d),
  (0xcf31d816ef9ea505b99315bc846f7779b1a785a2fe4eac46fc83d2ab5c8b06d5, 0xdb66d8a6650155a129547fe3181cb4c72f132b04b4016b332391fe6a15d7dc85),
  (0xce231393b4b9a5ec65f24550cc1b743598ebe5930acd72d06b66d7e1adc1696f, 0x1560a9c8939cf6951bbc75a06100c9c198dda095caff9b00234a22d4db067df9),
  (0x50292683e0b9b4f1c58b446ab56af5ba2dd74a966322375acf006d3e99e0925f, 0x2b66a215fb7f96046d559207ead1350c8b17203f9b9587c1e2c34cb41aeaffa3),
  (0x889de4e06febef335c87b92a76da2f259c4f579e5e4600940850325efe51bf74, 0x757568b7b802cd20add1da35c5344110be2a0335bfe127736900ec06646083ce),
  (0x5e11a1d875881dfcfea1f3af03fde37538e8b94f0facd2f07555977900f7e6c8, 0x27b6a7249e0c8846325ffeee339a0b2d193d2bbbc605a6c5b3a6b02ec1e2f2ef),
  (0xb64232b7ad0393a9a373c4a2e1a110329bc85a9bc90fbc7de4050f1cf1c367ca, 0x77fbd8dd416543420baa94afe829348b1604f30194b78ab2f5577eb0167dad29),
  (0x7307a8bfe5ffcc2f80dae67c56d11964d4c29e3cd0d3c76edab50ea5b964e39a, 0x5139e05ca29403a86cb533816fa34db7a151e62c28bf0eeb65bbc1aa91708c3b),
  (0x11e893a8d8148cef6f5fd2cc979a896a5671ffd10699336c6ff651b494a7cd2e, 0x423ac855c1d297997c0deb358a35b3de81b67178c50d8485988906a165cf7b10),
  (0xbb2c919025f3f73a99a3b936874e28fb28b2b89f5869734caf580d87dac50b74, 0xcf9f3f56cf9082d2f442e1070738efe27ebe23257e770374199f691884a9d5b7),
  (0x6aec5d6d068b141fec203a95366a21afcc9e8364c183f9b1719f69e109618708, 0x507dfe11db2cea98b875a4a997e43f4fb39ccae8271245b0ee2df78a994f04e9),
  (0xca7d33d61914e3fefad444f9f51b3ae5db86ec5b6ec414fa4fbf81cb489b03e9, 0xe832e75ce21b5ac698043c311aa7467ea9ca1d1e73969568a9c32f5c0ae6c4d0),
  (0xb170458bb4d3ec3906e7165caa4668ed08307c8c65ae86db314b7aea5232123d, 0x6c7f73174cab1c0a917695a06c9f9722c5f34846ae0304ed4d2e3ec6c19bb986),
  (0x468d834ba8a440fe2245320497713885d318b8c1549f7c976295940e9d6d2e8b, 0x0b12c61b2641a192bb8c7c59b5b66e53152364db6d71f116d81fe5b2bfba796e),
  (0x8eb572d907ac520171d78d6d9952b49842fd07895488b01e31f14802fcf0a7fd, 0xb76f6bda4a881a1178efc6c8f888aefcd2b63fd9ba017e66e0a2a44c4d194a88),
  (0xbba4521778084709a9ea570438764d34004cf5665ded2819187f314bb46c2397, 0x178cd8c6c7ad7bd1dacfbc40730f7507ad7b7eb1e7c9b671064745711171121e),
  (0x58ca59bb79d9e60a104b7831a56620753556d367af9c14f2bf0be101b2a67238, 0x1aed0cd52a581b8485643da5aeadd755517a52e85698f6c94bc45392a569a73b),
  (0x2c3323e84375bc2a2a5dacbef5f98d31244c3113f1ba5d1fb9b4ff8480af1372, 0x8979d54672b5a74ae83af245e4886a19a1928bfbceb4797e17a3ab4a5594b1dd),
  (0x633084d963f6e6e0cfd6f51db7707d40d9d03152e8fbbf4ea0f726bc19f9e967, 0x7d408f6ef671fcbffb2e39b64e962b1473b7f92b2e44d56fedcd9cdc55667eaf),
  (0x6103f6bb402c85961280dbb2428decbb74a42bb23ef3bd05cc634ddc164a89bb, 0xfe47819f28d3aa254e4ca16d6da0223b562f96a800946674fa2bf581355a5752),
  (0x20757b5f269d691eb3fca250867d3fd8a284f0aa956698259eea3075f8dfcf8a, 0xd2a3e770bcd686e51178293eb2739c33d3f93359ebc06da6f2c2402093b8a5de),
  (0xec17e239bd7fd0de172d93973b97f7e30d37406be3c71c0ea76f49f4cd941534, 0x752737e718e1b4cfc4e539a283e7eff56a69317236ad50e7e32905516f496ba2),
  (0xc9a1904a28c815ade5dc978f2fb061f55502468e703d00bda2f7932c68af43ee, 0xfa17081e223f71782a37245f20108ef3159abc5f193d8cedd3af538d470c56a4),
  (0x98102033509dad96594564df8ac3bfa72102c3ea4065054727b0fb2b10c8c0f5, 0xb7a89341def3de98078d096afaeaafd835eebd91d7fc5af06989643ff1d18a13),
  (0x0ce7c67c2d1124aa3a6a088ab98d53a2066a63978e5519942a206e8decf2a73a, 0xe5a428eea13c0d815455d479fd36727be3b373d34f6f67fa48cec671759a113c),
  (0xdb6b40b3293b2148aaf69bed8ebc329ab78d2727b8d02b2ab853dbc81c86682b, 0x68027391fab60a80a0ec527479e8b05eb1a12f7c20e5e0abe42ea77db8c4961f),
  (0x5c87331226d14febcbaf664e6a353b9ef957e4204de30ad36bfeea5f16b1bd5e, 0x1093ef1a46ab52aa67c16865a6881440db60a6215e0cdd414e87f98cb65f57cb),
  (0xe5f9a999f971268a55d44b4e0b26b8cd6a6bb02e7604551ac095afb53f4ece64, 0x1cb9c4a0be229831737bfba16c6c90a283568095fda469ddc08ec42511a7de84),
  (0x470b941efc1401e65f7aa00ae0e86ac4a0c23b64da03adbe93bccbbabb2eec64, 0x273291ad9508d20a1bce80e3aa7fbd814ccfb8a90f65d8105ad8d6799df43574),
  (0xb5efcdfc5c4b60544591640bca0bc9f8810684eca86ab44af5c4b46b42a92806, 0x85035235c81765a4a45fd01c9b03116de29d0b50d4d792f916fc89076e9edd12),
  (0x8943b9b2712a0fbb9d64abfcbc8058d8c1d10df0e80206041fe2a9b2b4b4b67c, 0x8b34a564e2c75dfb605fd4ca7bbc904085ab3aa24ce775ff90eed9143b3def04),
  (0xe9efab058f6d0f5de915a0fc4cc7eb152d8a50729e5c28aa41ffc94a10358560, 0x520630df19f5a4ef154357ae2cfede0d8cfed7450276154cdbab47a9d19e9b91),
  (0x14f8e491fd20cb7a2917d61d6c58d46cb6db05c988bf585725759f7ce382360f, 0x7d76ff4abb7eea355c8bc6ccfee09a200386f86faf7ccbb6b68a727a11c20340),
  (0xc824446762837ebe56bf0ea9c119336467a08054d89f0302a7bdebe7db15be7a, 0x87714718203491fa83dd4ca663b20236127a0548dbb8a54f32bd8e8b20d841b8),
  (0xbcc20bdf1232144a34c72c6a3f220e0c91cc0c8aaf23a1c94dabcaaaaa8a5288, 0x574095037b56c9a4bf46a5b6734b8c4bc441f00c74a005156e2f42daa20ede1b),
  (0x35f1068d7c3501bf1158a176be70ee6c9231faed6734e6429f735261e4585d45, 0x509002a7d5aee4ac3f43a60abc2420a1649406f2ef0afee36beef900a2d26115),
  (0xf27abb0bd07ee1966254256a4533c71624f98b78837927c1b46836a53ff3571b, 0x772b0da8f81d8b5fd9f590128798f5346915c751f0cd7a77d7cf64fc5c6d5bfd),
  (0xa71a4c55671f90f66e7c1633ef06b96036cf0e3a3be1a3741244260c2e03fa69, 0x25e78c88341ed00161a8a699d4f6c734c0bea51073e8c1317a94125133c673db),
  (0x2d702cfbb32011150a085cd7d2eb5ee9fdbf33d777be32cd5c18acf88e2f7d90, 0x9dd0fd8f157edb6b3041618e567333ac23a3ce3c1e01d617b6e0ebdb85c88ce8),
  (0x847e2ad165a6067a95426f0a57cf3d402ef26b4f657d5fe127f74702b57872b8, 0xcc3fc965aadb85b702a615c3d16f4d4316a56acd2a26115cd474d9a009996a74),
  (0xcc2f5e8def691770124f82cfcd2617f4d82910c258ad4178386bda73ce07d1b0, 0x085928bcec24e38ebb822fefb1ab94597b856aea1a8e575a82702550b8c30ccc),
  (0x61d44d0c31bf386f5d8dffd529227e7ac07cd4ba00b4d58b5d0402ecba8f4b4d, 0x6aa76076e2e28686a61bd343f10088b5680962ebe79410efe486dc2b135e6f4d),
  (0xc8eb579bc0cf2deed4ab8eddfbe03614cb26f5c3bbc76aff80463d118fb98871, 0xadfba9349ec285c1671235cf0f1e9ab146fbae5d3aeca3b2cc004c15c93bae41),
  (0xb697b7809922d8e7a29b89c6fb97a237c8ac4fb8f79e0bc188ded013f216c980, 0x633aad08a9385046cdcb364272266c90447b06c7e094c3a93142c639ddb945b5),
  (0x9d40e081c1d926f528d0fb62a591a67b871f8b64e94dbcc6a36c936bb57c6477, 0xf87b30ab3df3e1970ccbf5922c83188b228993f9a565b6443111eaf6f2d84b5a),
  (0xeba6b8ee54a2e253051dcae579bf94451a032d7f52800f17b8658b317642bca8, 0x8ec80050a14d4188d16d16a42f0db44884bda40e8986e9be5c8b9cadd4485692),
  (0xcbe6868cfc577caff1570359f2d6b19b41209ee4f073aa4eb2b2610798fa7aaa, 0xe0a5ccc6d9461fe2b4a1b312f086c0cfa6c35faecfeee397186c4bdc32c04dd3),
  (0x8b2d7405324bd6e10f71a602b194560e1126c55fba6df571c32278aa1536189f, 0x21863ad3aae448aa116c65a3f05ba915b5090b1a1a4d97a98481939e3738be71),
  (0x73c1abe26e66efbb2d50f8babb05b6297076013d0de5c1c4d24e2679a7aae5d3, 0x62210008c945973b7eb60a8b53a69457e4105d02663ba575efd4b422f2488af7),
  (0x90d8ea1625b1e0afa0a7a19c4be18e7abf0392f70a37a72cfb25547877a50ec6, 0x560dbb7c18cb641fca79c497e251071790a64d05bdc5465a7582a293ef953f57),
  (0x6d3b3730569f59581ee3f6435584941ad26f52e5590309001d8e32864b66abfb, 0x48f625c139b7ecb5f446cb7d6c8f9a0e91fcb81572b5c9b79ff2a62f4789dba5),
  (0x06ee1cad775af051e1b4873226e20588e7a562d928ac2f23babae8011c6219b8, 0x29c6ab4f072f34f81e127f6f195f4bd0c141a412652ee9e0da29ae43faff79f7),
  (0xc9a4a01f6ea88cd42bf2028a2f31501082b51af1e4a386567b7c147730448112, 0xed49d0775c0fe4a9ed8973e00da910bfdd8efa10b4519b16f63e95d8257e5818),
  (0x42daa688c1aa2aa042145c0e5c6669b91033898da7f4da57ac3aac5eb7caee1e, 0x8107f8cd819654908312e4359c8f8f2825572ec0f4b76817629cc15c1a1d885a),
  (0xcfd321046bb8bdc66c0c90478457522b74fb1eb1fb93561f516ff3a36fa6110c, 0x1d56251a617242f03461baedadf4e8cd7c27fc3586a9b6372d6884a2cc80ad57),
  (0xd25033751111ba44f0d7cb915ec74feedf02cad206adb0470b80d209c955bef4, 0x6be946c6e77ef44566d69aacc8a025a454dcb6123368551b9671755edf53cb36),
  (0x1541c7c1501de503e62f33006a1e311365e848f6e51e04d8719946d1a995e094, 0x60fc20ed0031016d544fd8690a51cd770e58589744cd0b714daac9faf4acfade),
  (0x8018f5e57c458b47477ca007c636e5bd46f6c3cc34f3499358b404eca4276867, 0x55acc035c589eddd23f98bae62ff9b4dcef48ccdee14f203a1202270e47b668f),
  (0x2dbf24eca1280733e08bc047a930978a19e9d634becdd4803fe712af64db4444, 0x786167ea57176fa33943c38c72e0f5ae5b012a5b359017b93c0ae38c2cd706b2),
  (0x39ad7d320bac56ceb2179093d55018de6b5efad8cfb820c1e5f9897d594881dc, 0x6a309b4e3e9c4ddd362d01e1cb64fa09117c4661f6d89daab55122e02cfc0e81),
  (0xeb6614f89786d358bd61c2c423afde7ab4b1d27d10e2c6c5fa979fb7abea49b1, 0xcea5d68acaede3d88c27a032c309914ce431a44f09360e7b4a5d816b7f6f7459),
  (0x7102c8a08a09356289981fade4728fe9893694167ceba27b3668f6653a0a3f95, 0xd67e106a4d851fefa0a9081112958a67505e55d1befb7f7bbb80310e235d21c8),
  (0x83858b5bfe37b3d320fadd29d1b3b730eb7c7cca73306cd9b84011a9431dd80e, 0x7990a63889b98636c66157a490fbc0511cca1fd31352d952bf4cd193b6251d5c)]

/-- precomp.rs, "1G..64G << 84". -/
def row12 : List (Nat × Nat) := [
  (0x66beb876a0f8ea287b1b80c854cfa0b5010ded8df7b39d00e5aa692a87dec0e1, 0x82ae9891f499e7421a09eea953479fc6a63d0e65b08d394950d7f5313476cd0e),
  (0x919c667c7bf56af589ae4447cceac0bc582967e23adb3b34ab58b9105ca7d866, 0xb187f1f7a967132f0b98f341463467f5ec697b9fddcaadbc9aec17b160f5dcd7),
  (0x10d41a77b44f1bc3bb5565f9e591a0c41506af3c741432f790fe7a1d214aeb18, 0xb6bdb65c3b3d739f652a3bfdf27f9ce742f060d8f20a6a1ca09d65e4a84bde96),
  (0x1b6c2d4609e27620dee95d8e69445d52995f2714efb66e5aeb5ddcb6ec7fae9f, 0x162c429ffba5cdf68c468ef91af4af63b03909f10958c1aa32621c318129d716),
  (0xc507db093fd79999571623abb245db9629cab45a5f1f9cd72f682343753b9371, 0x6519b3977e826327c10a73d4ab8be35086f0cc7805018e5c4e2ef652af036c32),
  (0x242e43a7e84169bbdb03fa92c849cffb8de25b37b300ea6fe8cb5eef9c053df7, 0xc66648e32b1f6390e6e72a50e90d89496925a77ff4445a8de4fa51f4dd6f958e),
  (0x505e399e15cdd65dc0a90dbddb1c71621bbbce7530704590b2ab1957173e460c, 0xbbef99ebd8b390154bfdb1e0de3336c160ad35ba6a2ca8e868434dcb57797ab7),
  (0x87c8bdf415b65bb6b99774d357b4411f2da40f1fce98fdc46c3b96f31711ebec, 0x54907c5d2b75a56b600f225bd812c594de95bb9b3c7471f3da3a89e3c2eef12d),
  (0x70c1e7d99c34107e7dad5c41f81683c9743e3cd6fa833319a93cc5f08db60e35, 0x0b4a07ea0f08a4148c76da03272bfa6036d4703586d0b7d30edc4a39a6be0907),
  (0x93057bbfa73e5a0edf49fcc7a77f00e0cadc5898231debb5699e4d2945c1dd53, 0x89d9be5e7e273f4fe7a01db767677c68114734b3c614011a2f8b7ecd027a4cd1),
  (0x0361bc67e681915953afc7618211b9c9f1f7a27dd59e4107d225cb2e089808ef, 0xa1b02bc1408591bc3e3bca1e0d6bcabd6a3c1810e70725672a865d0b7f071426),
  (0x3f7d41e8a819233b0f8886f4071a3c1df47424d398bd91d1e0deee5931fba239, 0x0ef6eea555a9654b942bb24963c9076286bb49af609a287f708623c2cf6eb998),
  (0x7b44589dbe09b55e6c8c5ecef78ce0c7fa9922dc56f991765f6d2d7236f5defe, 0x09acb4305a7b77072a3dd6fa2a1ddcc0d7fa2c7f2ab71547e11b3bca9ea83770),
  (0x4028746abaa2c31dc526233020b44ac4cd53a2b01917526e4add4a2e649d4e57, 0x7c3ac1b04854d442cce57f597b185681bf48f151ee5ad9095131839064291d4c),
  (0xc8e656756051f91b5a338adb955996cbae7acb2424f42b6565587dc3c093c171, 0xc9e2f07f6191ed2470cdd7eb3a232a8015d74137b6c10a9066711fba28b8d0b1),
  (0x0cadd1a7f9b46a4f0b4df1ae7f54438afa52fc69b55768cca80d1db6f79588c0, 0xc9b5b7e02f6e0c989f047d55382e4e16488e4fa555eaae35b40ea6b31803dd6f),
  (0x9bf0e7f52860bad13646ff276dc6f896a9604ee7c7aea3f66b1bd2d395762649, 0x482e474c95801da6d0a2afb19154a5fda2f5ce63aea9c1822d92c8217cb44b92),
  (0xec9dd0ee88fbc491eb7580697bcf64211d468e6560a8f351c19972d0b611c24b, 0xa7b4f8ef5e9a06c4fd5e2321bcee766573dc6864dcddf94e5b59d2bf956c2e32),
  (0x3d2dba2966f2e6e4a3b3f00f33400f42bbaac2608baec688fba918dd7280f855, 0x5163cfe55cdb954c009b8dd04807e6fb8f33031fcea423ccb6f71a9498509375),
  (0x823d24ba7b6c18e4c39c19cc66d2427cf1f03c2a037b925c03cc8f17cf41c6e8, 0x7891e4e3256c932f0ebaff522c28092e684360f1f8941c2e32ef9013901f0b4f),
  (0x27ced28462e628c7e6eeaa6967e9c50a553432e78ea7438151264319ac445e3d, 0x1df18da0e5177422364a24eb38bd9923de0a14c3e484c1503f96d3757a4afa57),
  (0x969041a032ae5035c5709850a1c175dd2e97c600e7de1391174e8f82d8d38a9b, 0x3a8b342d064a85d9b2d58ee6099dfb67d6bba71bd7c2e8fecbfd533b76a2086b),
  (0x2a7dbf4417689dc780e1aee83854ec42690c075bdf1f49a83bc07649522f9be3, 0x30aca6238936ec80f10a5e0fa0a1b7b3b2f02e9edf11862cc004fc0e3faf4078),
  (0xbe79d0461847092e985756180e9c26744681c4682c318a4df83cbf0502f40d9a, 0xc5cee5b61773319962ce3821e3afbab66dd359e472a51db9af1e480a78bd01e0),
  (0xca2e4e3568b914c1f343cff29ce262cf6e5bc69936c610b7e08b30d46ffd9fbb, 0xe7511708230ede97789429816685aaf8e0b10fdd42e2b829011d64c016de36c5),
  (0xaff3974c8793beba87eb12393b6e99c4e4d8c0a04c29b133671ed8fc3b922bf8, 0x02c29a21b661c96b6a77234fe37a0b95c5c3a29391007139037494052c18df9b),
  (0x1b083822537bed602959740422d513579195509e3bb22f53c3aaf1d6141ecf61, 0x9ee0b7e61b2eb97dc8bb1f82eb0f9cfa1f94c48c6dd86effcd7d6e35e07289f0),
  (0xbfbe8feff5c9730597ff6c5aabfeeb8fa352c3103bf79ab65a52fe2e34d74e31, 0x91022c6738012ee89b24bc9ab9e5e2001f812f3ac4fca249d6081ce6a7904608),
  (0xef7a6bb3bce7d2a4c9777029c1fbf9284876e3f084ef0f93e83d9c5d30a713a1, 0xd67d2e352eae7c2bbea4fd8f025d0f3fd5cd3398d877a48fb8067228dfa2a659),
  (0x14a96feaf50051d52e89b212d34aa60ab5551b5c4536e142184de7d7cc5f4394, 0x39f803827b326d318b12e4672df7731dc522f02060b9677e4e21ef740d12bb0b),
  (0x0c58e2b077c4ffcad68a3961eda3867caacb96a897319452dfb8630c39024a94, 0xc8ab300745f82c3754bc3d3d808bab10ef79b69af15e22893d545d634da919fa),
  (0xdc047df217a7f85f3b77be468798e44fb3c4763940e72182c12738b67c4a658a, 0x35e4fd59a5540dfea724cd0d87ca9b16cedca475e8e64d8d2439d4c55e59d92d),
  (0xa6a76dd6a1f21409433f665c3263c949856d6285295018faf8c1ff18e4bcf6b1, 0xf0d6fb0211db15d1adb6661d81d9bed5a1d0312206720e4a17d32334cc7b4f79),
  (0xc73932783fef2bbf2a7e711bfbefaf5aab50f9593033762b7fd11ad51fb747d2, 0x338542d40acfb78bee60e3114f3d6fd99092757b71efd215e29fa2440df6f9be),
  (0x48059420628b8b7936e6ee2e4a863cc61426eade986987ca44a23f0838961a0f, 0xabd6e7688d246bbd3e40e11f5c8f50665c8bdc4838c5aad130303ad87396e1de),
  (0x18dd4397d1d8dd063bbee3155de02c21d23f5ee4c34eafa068aa40bb23330a01, 0xf6bba1a5d3a50cbf8e620f701c4fe3f8e6d3b40aa33870d63ba1939a122d7b44),
  (0xceb4a72810fc2acbbaa2439cad63c9b2847edc46c08c50bd4a78bde5cfc0aee0, 0x0fd7e0f18d13d2081cd28559fdccf7256cc3889d03e02683a419e40e26da033d),
  (0x8e87665c0a9f1aa743053bfa3a304fd48cc2c5f3a2b5e4f301b9733b1f0df9d4, 0xf9723442b6b1e84a2370e3092bce28b415ace4553e9023db087f29ecd73dc965),
  (0x436cf77e54e58e3285b1fa73e13289d0b19396def0e47109beee662eb72d9f26, 0xced049708d7ea856be0eda870fc332ce7373e3ed1b11fc250ec833b3e990ef77),
  (0x587b9090966d487cf5e37950905af461b66ee8dadfdd5d2bf85ff7857e977ca0, 0xef5f64b4470bcb3da23f3499996ef2f2a7720e07141615ac6a198a1b32ba0127),
  (0x97d521069c48aef40d41a9e3a6bdc0a50c14aac069740a0fa526a96292b8c559, 0x264ed85ec5f590ff7362c6e5373aab2ecc834b1a47fdedc1cf16bd303e7c253b),
  (0xb3b3e08031e2d8dc185e7e51e3d44635a50c20b14787ba097a46d9c066d41870, 0x46900c544fe75cb54372baf23a40864f2daa3f7974a76781bed1e558a179e9d9),
  (0x5e2ddd19c36cdfa82ec769da4d7c99bd4ad726d295c87502b95f171ef76765d0, 0x4809d5ed8f0e1112be2f6089fa08a3a2e8a2583b93771123c22117fca93e6dea),
  (0xd66b1963b732b9b378d46a4d6be8b84a9049acf126f5aadd3b414aa3da7a095e, 0x56ccb81e8b27536d15a15fa60fd28921cf52d098b5bd87705c2ac2a0de6e9555),
  (0xc94348a41d735b8b4314198800bed10ced5f44d2db2217290f0d8ab89f4ccbb8, 0xbc517799e29ac5c432c9af568e143a144c13a4e3614c693f79f3e9c429ef8479),
  (0x70f4728aaf5ccb26aeda4225e4f19e166e52fb056c1bf55f05e179922774856f, 0x45ee9fb203ef9dcf8412328d8cf0eabdc827ea16281d6fb95d2118d1b2947f22),
  (0x6537c1efc7308f59a4c0d5b25ced7b68df8ff2d5cc4b37a68e700421bb937d63, 0x445b0e55850154bcdd0379528728d72c170e9a9bdeebc6ce25ce6a263b37f8e8),
  (0xd0d9a50ab37cc26d24840eff66a2b71f1e3416d4ffecf2494b7d0e0683a7337b, 0xe2ade2f1a10bf475220f3455769b52633cc5ef1623324c7fe21981506fe28ef7),
  (0x0e6fbcea27128ccb6dd01e55591941e31549722c2dc4847b28cd20fa458d3671, 0xd7b273695a3490e97539c0a872c052ecfa8c472c8f54e103ae1a1e6b3bef0262),
  (0x175c9c889e13d674dc05922790980aff36b4722e32e19b97143fe1f171684349, 0xfcf60d2ea24ff7e6d5570191d34a6e445ea5b7b2bedb4b46a7de5b226e6bfdb1),
  (0xaca2e2a946cab337ab50fece63c85f3f7be74c7eaa5a29e8614a392d677819e1, 0xdf16207c8d91c86f9a77935dcf7aed57db69f703882a04a87f700388122a6fe3),
  (0xa023dda2fec3fb5605dd8a8624344072a3125c44a77ddf962fca49ab63ed9998, 0xb2370caacac2171afb7cae51c83c1b074f2120c15e438639421b41fc0c743032),
  (0x6b922cae7e31405194620fca5b6598f059feee5cb85a44bf2eb2d9626cc820fb, 0x9509216c4d936530935c1e481ec29487546e71f5dfa1e9abff8745ad106bed4e),
  (0xc9536e239bc32f9609dbcae6e14c651dd6ae51526be8606fc7ca306785c9a2db, 0x20a8075eefe0c034383172ec8aedf03cf39c526c878756ffa90535a934521b03),
  (0x55b9502e88a2b00b944c742a3bef29508dd1078024b9d076f22f9c6264026422, 0x07fcafd4c9e63f5b55137f663be0592fa39dd3ac47bb4071a59e14b486a09817),
  (0x30d74540f2b46c44273bf2b8691add267dfab085ec2facb7963652ee346eb226, 0xeb740ffade14ea2c2fcbd20597209d22ff9b8a00d42eeac905e8e73ef2c2d065),
  (0x121b2cce9ef79af11716680cb6b360487bfc74bbfff4cfa2c71ff913a8aef518, 0x47a593167d64f61da48c32d6a004bbcf50eb1c6a5f79077bbff3c836a01eb3d3),
  (0x7c2da0c56e23ea95efb071a7c9bc6b9112c5f65494d125766068147f93102016, 0x1c2e94a706f8288f342ca118e6f57a483e7ad9b69122b13cf4fd45b6d4a1dd5d),
  (0xbe5d95c219c4d016bce0f5d0058727277c80de974d83875899e68f075a97d231, 0xde26d61fa17b8e854c84dcd132f988d342192dc1404d6fb3921d5cb19c2492ee),
  (0xe5cdcbbf0fd014e37ef5cb0683bebf1b9a38d7b636a266dac466dcb6137c7408, 0x8827dcdb3f41f0a033fd0b6166ee6f2060fe88c2ebb3e95e30aa376df65965a0),
  (0x466d1dfeb1478c9b522b05bf3a6b662b40265dadddb7641dbf8a9d240c56c690, 0x5effe34621371ce8c37bca023cb8bf510db6054902df8f9faa6169621484469b),
  (0xfc3f2c5a8839c59ba4f194707b75080d8a9c736d7b971fb2e8f65264ff112c32, 0x0853ac70b92251fdd76fee5a5535affcf3db034dda1addfe1d6c777e5aeb49c2),
  (0xd8ef1d8fe493c73b8083c1b5f42c328b28f1f4574de00ddb37e3d5948b2a29d5, 0xeed48d653839ccfd7c605a802c946a5df74e8a9d27ee2f8a96fb626041dc61bd),
  (0x3fc8a61408c8c7b3daea066ba5e5c2f2de81e949c51eba6d9894344f3a29467a, 0xa1458e267badfde29fbb7accfbbc87d5bbc11cf53b75ce0a7adff88f06d0de9f)]

/-- precomp.rs, "1G..64G << 91". -/
def row13 : List (Nat × Nat) := [
  (0x072002d0d78fbf04eee426af79aa062b5f26fb8b7c17fd5d1cb43668e039c256, 0xe943083373dbb152aaa525926d7e4181b401d8a10c82133d4c9ca237e84fb7e3),
  (0x276ddafe29c24dbca52fe8409878218503f7d28be095a8e7f92dda31be24319a, 0x7e4d52a8851690362f81a8778438d2d5e43608897f1dbe4280cd54961d7a64eb),
  (0xfbab8084fae3fd83e5a730b0abf1f248c7eaa762d788983e19e3d5b11d59715d, 0x59f8090cb1b59fd39cf3c074397b1b10bdd4e083fa127f3d65e50d2153765b2f),
  (0x2bb2d0d1029fff327bb4447e7aa448828fa1eb40968554ed7b15fd9d615faa8f, 0x218eaef0a87e24dcbcd5624e9a506c628eb879de22e7351b075e2a646caa6d2f),
  (0x0c0571a13b480b8f9ac1df3f1ee96cf49ccfc5c5dab3f74737e5684744ddfa35, 0xd57759b44413ed9a52a0f5dcb2415b3a35c036695dcdbb992fbeb3d54b3a7b3c),
  (0xc0a94af929d393f511d5a334131a4a9b0857f77ef78a81dc1fe647d83d30a2c5, 0x991c4d6872f83533bb4335b4bb614797ba9fe49388d2d7edbc3a5c0bdaa6ec1a),
  (0xa1e48f03d8fe8493419a2b0de87d0db493d6eaa3d75db0b153258c28d2f01cb3, 0xc7186ceea7fd3cf59f5e58e2fcf9b838f137571a35d53549f747faf6c508b23a),
  (0x5f0606c33a61d41d5102979487a5b862e3a68b337ab92d0477b868cee978a1d3, 0x10f5f9d3777f7e4417464d7dacdf73512f521c14c6fe3c2e2814be276f9326f1),
  (0x515759ba3770b49baba111754fdd4153aaf738047de62de5ce8e616b269fb37d, 0xa87e91e3af36710e1cba8ec19b4c8936592245a1cd41fb928b09ebf8aa423a61),
  (0xf19c3809cbb9725a895bc78c619186c7ee3759ceb43b5d611fd84ce43d34a2e3, 0x6fab2b4f0cd6825374be6157b23efe11a7d222b060f8056bc0be21aade744b1f),
  (0x54f489bb94a113e1544ee78aa377af069c1d8ee24f6c950fad33ea5f4bf1d725, 0x95945722e08e120b1d49d4af95020e000169a7aaa2a443478f11d634992fb7e8),
  (0xf876812cb29e3819e05847fb37a9b750e36e029d48020ae7b6e33878a4d32282, 0x8d3eea2452333af6dfa8aef42fd67ae06d7b4480f0b3950e84ad138ed23a17f0),
  (0x908ccbe238aa90708dcafd88dfa36cf2c6d9c79fbd815bc40d052075b15d5acc, 0x84e7f0de65aa799b2dce252cc9c335c15a3da8b0fd6abf0b638722c4ba35afce),
  (0x0a821ab5c7a6754a5ff8c7cde6f3653e06de6e67876180162101a522b99a72cb, 0xb490a31f04e929b01a72502006ce053aa7fb121cc90487907e3fa52b7cb0b5a2),
  (0x356474067f73c9ba1063bfd3dae3cbba781a961c6be01371e17be47d62dd61ad, 0xcf2bdb29e7a4c8b69436ee653a19fcc5a6313702ed13f256f50e957b2736a129),
  (0x07d51e7e3acffffc1bae59c2b9e5836dda8c8af0f4ab95f4b06b1244c5f95cd8, 0x61a1b8842aa7a71143324577a49fead43bc1923f8528c3e001e15e6ac2ccbcda),
  (0x6e67622346c3614c7645f361f55ad8f20af585a1bd19adf8f9a86e08700230ef, 0xe716998beefd3ee49bcddd887b126aa582a38513ac102d1b23cb257c4e774d3f),
  (0x9ce0a3b7d2d64b6a271c289569a27519dd011c78d16c8f8a4239d571fb167583, 0x5c00295b0cf0a2d5808c14c99a453419a3b49f9a8840ef6b8c977289d5ec6738),
  (0x64ada5e0b7abf9f377f43263f70d110fb07691d2459a88f1524414fb1d4bcc76, 0x097f2f7320324e45b99b7d6e250c74f4b4a13a15fd2713feafd0f94e5b544cf5),
  (0xd8e1b8c1fe6955d63da746517a3a607fc3c31b0bdc29aafc994b37d8affa8208, 0xf39cab1583a6502e48a04669c6996982541d487f7dc91d97716e1815c8418682),
  (0x4f6985d3fb6562d1b0c8c0aaee2afa84f3569758ba3338d5025801a0e68db055, 0xbc9d95d632df03dca3f98138e5b1f066510ed0b4c04365fe351f1f15132ed17a),
  (0x2ddcc3fd544a58fd58a5c478d64a06ce0b4097c14ff17edba83ccf6e19abd09e, 0xeb86016234fa94dbaf5d47c8dbd9120c3324fd027774179bd449503d9e8153b8),
  (0xb39ed2557c3cf04886847a1f5f11e5a6e5579e2ed27bbceb5817bdd1972f07f4, 0xf6d17da317227a464bb7c3197aeb29f96b9ab38f1bcf82a2e1076417a2f62e55),
  (0x612c040101ec60d07b2396246a9ad24da03da7ec000c880bab53ddbd0f968c00, 0x0c74ec71007d941830b93f95c6b9a9b3fbda403080af755070d10493109f5df1),
  (0xbc593df3a228ce7cb7870895b38d11965f4a9d787f22c282941755646edb951f, 0x847ed87d61ffb79a0dc73f328be333047802200b3d9b3dccc78c5bd46af3641a),
  (0x18923bba9b022da445cb0d5a95c387971e14100ade16f60ff85c974e6d671192, 0x1af777f0f92a2b90d98c815484d5ce3e4a1510ee216067bfef2be899bbe7e86e),
  (0x1f3a93c55363ecabfb3e2cb5550029943e04a4c93c0ca6fe9fbcb4004ef65724, 0x8dbd7365f5e6618b3fb2db596ab69357744bedd91e1751ea1fe00efe3923555b),
  (0x22c8361b5762940bd088a198596eb812b3f24a0b57d61e6499d53099df1ea40e, 0x135a7536420d95cc11599a7fb72b15c3884611728e43cdae66f01f97f9c0d95c),
  (0x84c10cf804a106b681ca829ad1d441b615fc6e1dd7fa6da22dcdf0f75f7ae2f6, 0xf8a74fca036f3dfe48b459371e25a0437f24e0cb4d8f6ee8a9b26c95a73fbbd0),
  (0x940a120273b60a5fa8e96cd46c4fcbd07fbaa8fb3bc278b01ed46585c9f84296, 0x492f8868a4e25ec6794456d7228c68ab550e9a74dbd742f034aae12055a4aec8),
  (0x4b6155604ea3dee1cda90ab85bb917d6f13b51cc5b84c953682915adb2d8f398, 0x220f448ab821609460c14f3caa0bb3c6eab1a69520b75fc4578b4e850a52c1c8),
  (0x8589fb9206d54831c0493334d5e7b5a4f4600572a9e54fab4fe7ee31b0e63d34, 0xebb0696d02541c4fcc904507100446520879094ae25649e5aa70f5cc6583553a),
  (0xfc457b0a908cc0cec8c582e1ba39bdc138f1bed8f374a9f55a171fdeb9718710, 0x095c76616f6c68972553ed0596f843958ec25b39387253819a187fd4883841e2),
  (0x4a9fc893e59e46995fc655478b78bdccb2885fe4179eb301917ac85c4bdc5610, 0x55fcc99cb21a51b96a929c87d38ddb8f195be9b3adf38b20bb7ff0cd3ce299af),
  (0xf98ba31c78118910fb63d71c7489f914ed1e9a15768eaac22b695b4c721a4593, 0xeffb3c0dd3998242dbd2e22b55418dd37801214ed448af4a802913739b128eb4),
  (0xe5f825c40a81fb98fe37cf688564d554f2165bcb47f8238fdfa6077cc7bf3827, 0x5659f053651773b68aa8fcf95041faf1bc609578b50a34b043cc4f67ffed4d6f),
  (0xfc64a71945985cfc8c993e0fbfb2bcf6a60894090cdb0ca0e87582c36044d63b, 0x12002ddd5156e0d3da4c9658a23defde804ae1122be67df715c4da8083dbedba),
  (0xdd0a93036712f76e0ae008081ec8897a8b99f28bcf44624de68eae895dd21b96, 0x21f37bf42aad4a8fabf9ff74023993d9192445b12b36a8a5962375224e233de4),
  (0x7a5ab088124f9f1c3d27bbf1e5fdb6f11d902cd94868195d340a4349f8bd2bbd, 0xcb840d128ece2a7cda355dc7041b66572f8a197731f2c123c466ab06f7a09e03),
  (0x07753ef583ec37aa5d032269b31f609478fea13307a06f1bb600ad9f7db32675, 0x6109beb3df39482009403761697f726d41bb3989bc3f452403485aed9c0bea78),
  (0xa2554945d7b6ad9c619615e624e66562b6271ea9a8582654804111ea3b6d1145, 0x8777d45f286b26d17c327013928818329770ccc07b51cdf6d9c4985e99bfe35f),
  (0xbb3786e531e5d2344b7b96d428a959a103aa33b6c3525d329bbeda22d847999d, 0xbf6688f0781adaa89cd1ad3dd7a7ae4f20aa85af02f93d3faeb5d3ce6961f247),
  (0xbe24bf8f593affa29b7312af4b54bbc71904c524309fca48b1b40e867469cead, 0xef170db18ae8a3e64af0d2c26b8fe4c7a0f45f17a26e299ebe5e0790bd98764b),
  (0x7ee1767da496be55328c6623c8173822cd53e87e60ad36ca0e8d61a029e0ccc1, 0x43f6bc868a275385af2febd91f61ab8c9e45a5fd25c8009c89f13259648945af),
  (0x1f428fce76a1fbdc7536d2f64a839d9b17d89259c6e6238a87792348f2142e79, 0x5b5da0d600138ccef9cbd9ec9b30f41bbfc16bc150a3a3cc1c1096010db06dfe),
  (0x4e43c42caa1181e066deae32ec3f700db47eb848982bf842ec1d0a4856ef96a7, 0x820e52e2fb1283650d6a2d3b45fe8a7a440d4668c004f3cea1d72a31d1a4aa2a),
  (0xf97c4c877c132181a9892171a1ebf90e180cd2bf2023d15929ac5fcf25e51b09, 0xa8e2f4d6249cbaebfb0b2a360767d153ae043765018cbbe49f1dc724c03dbb7e),
  (0x299cfe2ede77e01bac803a511d9781691758fada2970764a172a5247d95ea168, 0xc2e22a80d64b9f957ae0af9f7175b56a2e26e1d120014495652a1e17b0a98927),
  (0xb8cdcef6725f209e32305401da776bcf496a27dbbaf380854d0ff9fbd90a060a, 0xa2d4d14ad584953892beb98eda3542cf263fa1087686004961ba0f37436a0bba),
  (0xde4e4a55920f43ff352c6aa999ace63861d9075c5f6e3268989b9d6812e9a1bc, 0x5eb3620186693711613416aedcd1bd56667417ae6f6e05eae5e4144ad673c017),
  (0x569ef68c11198875e900e0f23fc8125c175a129976dc59752d7bc5043a1aa914, 0xad9e2a09aa735e5ca5c94a5276412deae3bd3f56988357669012db6363a113b4),
  (0xe9192ff99440ad2e1a9433a1dfba80dabde4a1d16df1a0d1405a984c508b65e9, 0x5479a999fbde681a178279ddc590da6125ddb65c0b27a54a9f6496965099fe92),
  (0x04fb15b04c144025df0b0c45fc0e089fbe11dc92632d471bd0e84e05013fe162, 0x9a88e2658644549df8185d5cb8dacbb4a033e9e03de2eb35a61d5fc213c99927),
  (0xc1d933d26a2847e906fba40be67773c04bd4241b5fa58603f717af6254671ff6, 0xcc6641db93141934798d76aa3473f6e592aab0e746bafd31f4f5acf3689e2c70),
  (0xc2150672e4cc7a2c8d1f96752e029ffa04cc43b687c2ee11cae27757d31e535e, 0x95a52fae5db221251bfbb529a2804464a9d6816fedf298f33b03c1e08d68b013),
  (0xb6293a2d35f1a92013394b821bb0fb93004828f67e7fc9fe55b321600e1cb64e, 0xa28e52e6117cf8c200fc8f6b32cf252dbe6225b3bb8fa603de35ef21d145d2d9),
  (0xa8303593353e30835de05d09a4292f81cebe067536ef0f289d1dc89b4c371e6d, 0x0130cefca44431f05250743133c9b1028c56f61e2b8faec3a1715b0a7e37a9bb),
  (0xc752496d3a1988f640edf2e4babe72244b03e578bc5f1dd756039fa0bd865cfb, 0x05ae9668f354af33568d193416f601260db1d11039a1c608d1572d3b564beb6b),
  (0xb633e7282e1d1066cbb6869c1a514ececc084353a35837d519de6d37c92544f2, 0xb2ca7d5bfd916bbb5e676f482e448a5b96e7b8ce7439c4f9f15dd69f936c581c),
  (0x83f3086eef7816f97d31b92a0362189f47bc5769e4c2d937d55a2541f5024025, 0xbb7e65f9364ffc2c27d57461b000ffcfec2d22d830e76c5ff9f46d94b587579a),
  (0xf2c8ff8e7c3141635021701d89effff361618f89d696c9817c7c94776652a220, 0x262b9b1018eb3ac922867d342a67d51c937b5adfce176d952da413ad8efb4d3e),
  (0x8588993ac1acf8313e90e40bb7a565c2764766276a664e7a4e314fe4c43ff28b, 0xa8327499f3833e8d37d44a6290cd34c7996627ee3edd7d4cd7b501d68f938829),
  (0x3ddbaced915c25fe54fe65d693d5ab6685dd726b556765fb2e18917d4bf50353, 0xfda2828b61ece30af4f1ee5643ca1637e2a248676d06f6bca799d9a412f22e85),
  (0x35aaf66876cee0a7aba445d24eaba6addcde2f3c734b2284758c1a3ea2dee7a6, 0x6b89de9fea043f7abeb183ce40afecc3e74083ad91103e847e0b04a9e5aa049a)]

/-- precomp.rs, "1G..64G << 98". -/
def row14 : List (Nat × Nat) := [
  (0x5be008438bd7dddaf45b5ea997fcf9139145076093cf2f340e299d23fe67ba66, 0x367e7cf2801fd997ad684dbfb69ec1a0bf7ccdc35de91ef7358c3e05d53ff04d),
  (0x79356a79658624481af3bf39badd82a727de46089f1d9f2e0ca1f3b7b0dc8595, 0x93b0bfe54e5b6368b53eee42844d40fc1a8b0f89139a42f9c0602345f5f9a052),
  (0xf607c834894a94bb8aa898e2243398df90dca9ea41b57bfc5434dd02c024789c, 0xf259ced7b6a0d1063d79efcce703a88c6576ba6718c29302bb07be97c2c99b76),
  (0x89d20f95925c728f7774bfa64ead6dc5e8c515fb67e223ce0f893a5dc8de610b, 0x0842e3dac077282d1b2820974c304d4aa2eedb9493f2a7d77a1e0966098583ce),
  (0x5c04346f2f461ecc8fc7083884149d917cc60b27c48218ffe4d972a33b9e2d7b, 0x88cace3ac5e1c93e645613d188babc835e35b537c1f666acebe9fdf2614650a9),
  (0xfa9c2a38c710941fccb90f03d7b1487eccb03cc85fbbb6e3209ca3753de92e23, 0xdcba2865c7427591b150e519ea5e038e3a902258192d0323756c38236724ceed),
  (0x8a35b6a13048b1869884d8a6eb3480d6c443bef953fcb4d9e549237f78890732, 0x244a35a0979a3b718f3f820d4fe9ae3b45bf380d653006c0b4e4471665e9a90a),
  (0x8595c4b3734614ff74c86cd38063aa2b9c17c7dfaca3eeaca1010e9d74cd06ff, 0xddb27ce35cd444447886078adf8ce9f5d9bed213ca0c3be5a3de00ca990f62cc),
  (0x888b9aa0c3020b7a886c6579de1f7ab8138b2d49908015b8ed374a6658926ddd, 0x1f508ea40b04b46e064c8e50ff21367aba65b0b8f30fbe9ad3ec034e3a96e355),
  (0x7f55cded2018402720ff4e8becdc3608bbb1e5fe0518a06298561a49747c866c, 0xf5bd1a090e338e01be95dd980f12b66f5b589fdf8bc3b8c38d73ec95f38c85f0),
  (0xca8761f6bca477ef8466b538eeebf99c6158d6d986f8a46b65163ae55e915918, 0xe916660164682a51aa6c577d5de63752ef3b0f41e0c3ae2faf3449c29ebbc601),
  (0xed03f717a439dee65bad4706519a5f1240d12548b54b07455a3097befc15aa1e, 0x7f68ea1c437293102cad75190f3adcaff725083dcffe71d20794bb6c4a02c499),
  (0xfb3261f4e4b63db78395ebaf5a3ffb83ec104c3580761a22e747c8c7b7ffd977, 0x83997db2781cf95b08f6337bd3d65f9913520d708cc2eeb853544960d883e544),
  (0x6236a3245e753fc7546f7c4b0e9939214f8eea6b1f9ce934ce6ff1060dbd2c01, 0xa042810870444c7473c556402d4cef9c0c18d87843d1dbb265a41f84a16022e9),
  (0xbceb5970ea111c2aa9bc1bd45f823d9749a561435bdfb6df68e4f15e9afdfb3c, 0xa4b4099095294fb9c743c41c4f18b0867cd85e1ee9bc5d62366b455fb269bbc4),
  (0x1d112926f821f047ee8273abb728ae3dcf17dcc5359d638e9c7c581d26ee8382, 0x6b8bdb9491ce7e3f2c2580227ea435ab687fa761fde0dfb91149847750491a74),
  (0x0d88111821ae8f8dc284e00a3736bcad043718194f6c7e4b4c5b5dc93bf834aa, 0xc560a8b58e986bd7dceab0dedc2733e5a11fd075a1bf40dbf9cf0f82f48c8e33),
  (0x9054303eb662a46c0f2ae613da6fcdac3885b29092f188f148dd1fe23929d097, 0xef3d645136e098f9d8bc0650d1c9df1b98e6a977bdaf6449b6871e440738042a),
  (0x518d761cc564cb4a8a112cffa58efc1c77ca9db1f5d8408003fbae82b6d72d28, 0x8e54ba566bc7c95c3fe29f9022f53382717039cce9eb178569b5740ef0d1b5ce),
  (0x273eb5de47d834c64640032d94d767543b61b0f1a82a57289c806d8af7f91d0f, 0x82413c24ad3a1a989fba6b32715071b3b7ce66bfde4017772988abf77b4e4d53),
  (0x458897dc5685b50ab1f9d2fa2b3946f3b5679aee5fab868d5b7fc8c4e0e8ad93, 0xf9170722579e82e61b77729a0dbdaf1839564c5f78642e921e98c93089d0caf3),
  (0x7446bca935c82b32c7a82aab6d2e0765f85cff84fb0c790f680c0317e4515fa5, 0x92113ffdc73c51f8d218313daebe80357c1a46a8262803a65de607aa6d63184f),
  (0xa0c22f678fda7267fb3f324b73c07e0469d0a37a56126bd54b38e08312e7e46c, 0xbc3923121eb99a98e1c6cf07a8f0f277bc45ced3cbe2cae58f2c00514d2c7d8f),
  (0x55fe8712f6d2531dfd05ff64b737df2f8d725f57dd02753b75537b7e3cc8ac85, 0x8242d3ad9cb4b2324f82ac35cf86699b69a02a897cd9372457ce04a96ab6b01c),
  (0xfc24d8d3d5d6782ff2f9a79e6cfbef09bb222bfa2d29be61713d0f65d62105e5, 0x3f5d057a542980269d655fc005d8d9a3db81c3ccdc3c2a435db77085d4129967),
  (0x60a412c8dd69f3832cab03b022adffd1b26baba59b09573e1157f56d88c54694, 0xce419775c9ef709b877396487b00b594d4ee67d3687e714ded76e98b54b25039),
  (0xea4bb3d777cc3f3daf196d3d95578dd230d352d6eafd8f9140f76f851c203a40, 0x86ec4ccf89572e5eb838134cfc56fcc8ac958c400624920d42a5bd03b98e782b),
  (0xef921d701d378e46fa5538ba3a6c67e5323b7dd8cb28fea169c435269be47be0, 0xa6c2920ff0eeff9ca990eb0afef0ff393f6f914e98940a67f92961fc3c4b880e),
  (0x6e199913df57474172ce4718aa82e7ce42531bc90ffb0db1ca80416651b8d9a3, 0x3453c20f138c1988dc9df4cd8710d2308255dc65f68f0194d5f1b13dd5d36946),
  (0x40448da5d0493046348056015c1ad9244dbcc3f09857df859af98dc089a6ef01, 0xf882a423de8f66fbefc9349140815b3f6343f1bd90e8a301f629926d4ee343e2),
  (0xeb6c5db32773b21c7a904bfd6fc660b17dfba38a3c384c273a12d5f4e7db9f57, 0x167ce8c30a7c1baabc57b6aba5ec6aad9baac0ce44540f29c350ee661cdfe049),
  (0x0bc95725a31a7e75796525c389e490d96ce141e74e057f78b23a03a553fb2b56, 0xa7326ca6bee6b67031cd6bf7e8ebeba9716e3a3c408b0bd61ec567911220fd06),
  (0x61690ce10410737b50490b6a904b7be4561e8f13f12c39883d9f851ccd090c43, 0xdbc9fb1fc0e1bcd29fa255f3fdfcdc0f258758f0f026092e299e9a370f009052),
  (0x4532da0ab97b3f29103d396fecca4938dca45a84a5c59abc35f9dd6e24651840, 0x97d1a0f8a943152ef77cef063f5be0933aa9505a5e6bf2eec4135ea51999a6bf),
  (0x4422b0e9d0d79a89c6e17321b300101ff41b29fc2c6797c42cb0ebba2e1c21dd, 0xca349d39356e8ec284d35577db2926b806ab1f8fe1e10ed949e4901c92f1bfc4),
  (0xee959ff6c458efa20454879c316865b48fd3bd2837d1a6b170b63d32343bf1a9, 0x54498bbc7745e6f6092626802f8843c8737db0e2164e4b2e0461dcf89706dc3f),
  (0xb65b514e28dd1965fd2c4bf500573acefcc3c45470aa87a1359473faa29e24af, 0x43d84d2f0a0e0f02e7594e9600ff38ed60e9a4e1f5444d97e46ae7cf2193e393),
  (0x20da1a56160bb19b0a1aa52f373460eab88a56aee3bcc5be8b6db141ee398a21, 0xd84fcb1801dd8e92bc44db7b21737b0471a14d245d5a180efb54999d65bf0384),
  (0x4c58b582a5f3ef531edb12ab28f08727535054995c98fd4f80de937bfa44b479, 0xfc293a537f4e0433ecd96c59b96024f2c3a3bfaa4d7df320bfb236d88327f246),
  (0xe1a4c617af16823d4af3792d18577a7fc50343fdafe652c35341352b5acf6e10, 0x31219614981110552a792f33706bb20b306399ed9b7bc47f9b26d0cd33425d0a),
  (0x080094dc47e799d9b5aa7942bb6aed5f11392d91962277fd864ec06487f5d28b, 0xdeebe7ef514b9492cbae64e602f5799ad3e7570f8512f2844afa588c208ba19b),
  (0x6233c3bc5562d490f52ff31298cb9a1617f561be3678361f30300f98e5c298ff, 0x739704df822844ba3bdd29bf2c8c53b1961bcfd1e63651197bfa15a192e3a2cb),
  (0x2983e996852c1783e7eb88c92350445223360791a806c9b97dacfb587e7b754b, 0xd0980f9092696cfb3a6f9193960b52d1026bae03262c7b3cdd4ae529958d881d),
  (0xdd2d5a2f933260ce4df53772fc5d48a494dfed272a4f66304c1f428cd5f30851, 0x794c486a14de320e30e93cb8243057c94ba6b20dbd12533a574115bdd44cc7a5),
  (0xd0a47259389294ab9810e2de3e8d812ff951d198ec696331e925d4cef21496e4, 0x1aeb8750e0b84b0be2dc6d59af04c49e462caff5abad306f513ba2b50e3bab66),
  (0xa1170c03f40ef607801f4f8321facc2f6d2e8128e06acf2fc034f12f2f7d0ca2, 0xac212c2b9afa61085b1629d035531f40bde56a36cc26aba5fe0a1d4f7805a99c),
  (0xd52e379bac7015bb5d8cb8427ccdadaf6f0545dc2c63c7c130a06bf315697be5, 0x61cedd8c0832bcdfbc73d23ae2856d4fd44a429846bc24b0c4f56147f462c23e),
  (0x7f0076f4136f75460b35bf6aaa89e491ee4adbd7001a349d6095355699f241d7, 0x1550518ba3be4a5dcdba941f8761c9716eb2d2cd62a7a28bd19a18ba9264da3d),
  (0x424db6c330775061814670f044416aeceea8612ecd133ba3d0e8e2f057d0b70c, 0xbdd6f3a80cc616dda805bdcccb0c5021c61e7fa518a3478fd96039d116213fd1),
  (0xb99a3c667d741fb123680ed45491627a31db0fc1af0bf4b6060096675d97f7e2, 0x385346d46c4f7b47db8a2ce750fcf26329738577512b388de9bb5f5536b1ff92),
  (0x0f7d00d2770db354c3b1f7967b23f821bf91da2103a57a29be86c5ef31631f9e, 0x64d97e8c671125284640991dcfff632acc5e8c40d525c9968ffc6c3bd8fe79da),
  (0x12ef02901fffddbd6e4c8c73e69802f7ce87eacb1dd212a4c232d97302f1cd1e, 0x3bf16159f2992aae809fb9d47e8f9d05d0b540243cb92cbb941ec74e1bcea6e2),
  (0xef0469953dc2aec9bf52e6f1a01f6fa111aea63105615660ad40f279f8a7a838, 0xc66e898f05e52732ece797b5fa21c126e1aec60a9fdedf76785dbec9d8080711),
  (0xfba8ad1dd58d1f98c8e7a393174f41388bfe1ef82fc7f08239bb69c408811fdb, 0xb526bed8aae396b3aacf7658afd222530b839a826ee60d61bc21d0cebfd2fd5b),
  (0x138b8ee0d73bf8f7cde9bca358188a789e3ff9478c45bc73ccc1bbc238564464, 0x95fab881a9e2a9270629eeee39a15fa366e69368fa6432975c7e234c4123c489),
  (0xa2f26699223f63963558352defb68d78d75c9ce6e75b7a93b2497007eafbb1e1, 0xebe4b0864e1fa98d8ea47de782cb113f62545779e72d3ec2eb911ecfe469b17a),
  (0xf17c8bfbbe299a769678109b11d244c5a535c077fe211a74ec2d5ed78cdfedb1, 0x2e719e57ce0361d4d8dffd950cf78243ea0b548294ab3f65b651412efb11fbc4),
  (0x85b95cd8e22830035a33cdb43f9d28a9095e8c6d4daba2ea9007f085304ddc5b, 0x68349cc13bbe10186c49b2fad59038e429c5f538fc7f5783bcd6c819b9744733),
  (0xaadb13a84e8f2cdc58fd729448de1a9436f9c4eee9bfa297cc490c1d21830ee5, 0xe4d8c4d1b14ac143357f8d75a653dbf8c76bb468c2152dd8515eaaa081313dba),
  (0x565448146d88f01fecc65651b82fb863898f8e7b977b5167bdb8e675b055cb40, 0x1d3837fbb6ad4664651d14db3f3bd37ccfb6836f1a22fcdab0928e95263a75a9),
  (0x18cfb7c74bb8dd1bef13d60ca85c52877243c7126d7fb8f27c5fb538ff4f94ab, 0x6bac55e78c60ddc452734f379cf4b42f35c4592b9d5144ab82f9bfe672908219),
  (0x6c639ea60e02bff26a0e836e15e660f8259ecae4e18cc1a3b5cd811e94dea0f6, 0x1839e6a68268f57fb8c7097477f01da39e73b50b632619428721b8cb7e1026fd),
  (0x7014c512be5b495c8d69c18e4a084b951892389ef92c7097571b94155150b805, 0xab4f4f205dc8e360c38b81b0602c105a2f6219ce2c1c64fa4780db361b07523c),
  (0x7a527e6b1d3a700748ae0bf092763f9e1f36e29d23ba815020d3c982cf7d62d2, 0x8802786e1113e862f98db37d167d726e1f1a520fdc158be5b4a89097581a85e3)]

/-- precomp.rs, "1G..64G << 105". -/
def row15 : List (Nat × Nat) := [
  (0x56f0af001b5a3babd029704506e2099803f163ca4a10bb5befb2149e36f09ab0, 0xedc4a79a9c228f5532e6c84a7eceb4bd7332a66fbe3d913f7af4cfec70880e0d),
  (0x9dce37822e73f1df5b7e63f2add7f363a6a9635725bbabd2c37c7dd0c55c4496, 0xa5e2f1f88615eecff2759c32f6e515ade44898235ba0163ce1e5a16ab2b91f71),
  (0x6392b0b128da52b74d00b10b0e10d9a903d358b8c8b7441074519be7abded551, 0xf6fc5d509e4636ca042e421d182cf932c305b0aea8f7f96c6744a2980b75c904),
  (0x48f862ebc04eda1d07099bf8df8022ab6c50621b9b6cb27b795847c9d64cc78c, 0x66d3b2c645460515e2257f54b429b4fc19a80e0f5c9a9450d12732ede1603c16),
  (0xf06fa36f804cf284f747f3a241190aeb73f237b4253bda4e6ca4f87e822e37be, 0x7fa0c3543e2d20a84b0724257ba556f35d624b6440b80ec60a6bbb6efc621c12),
  (0xf3d69f736bdb97bd84156027a6d38209a929c65294531bd4e921fa31e3229d41, 0x99ce6bfdfdc132a8cb59583b0e511cd868a34c2e03d51be38906d19a16833631),
  (0x1567bcf96ab855de12a801f8f1a9078d658bbc1a34a38b083facdaaaffcdb463, 0xbc08728d2198e8a2bb86e9c87d23807ccf0353e58659e68be08498e03572359b),
  (0x911cac128502effbbcd86e47a6abd3af203900a7bc0bc1f88de2b7bc453cadd6, 0xfb87d4494cf751ef633f078f659798850e9f769229e0017e2d550242ec965469),
  (0x6cc69f236cad6fd2c8db638625b6e83f364672034bff3cfde1790e4bfc25419a, 0x4b9eea322a0b949a7d445368465dc97ce43d79b6297f73340219e45a6bc68bb9),
  (0x275c28e4cf538875d4b85c41c49f19a8eaafac782f4461ea1b96c6ba6102d021, 0x372a4f8c56f372165b8b4bcd7b36cd246991adb50605618b35451a9ddd2e54e0),
  (0xf9ee1edaaaec8243f4e14d94f0536e576f083da0dc4c9ff0c890bd73a6a5da60, 0xcaaf21dd7c2712029a0b9a99e3fff040a5db82710b041e26571241ec8bdcf8e7),
  (0xf759b7ff28200eb869202c3f0d7a2198e77e7c4f0a377ac7b4e2b2e14f0dd2e8, 0x5aa7ff8c23fca3f4b1b52ace515138b6eb84c52453d5cf99c87526eddcfe314e),
  (0x3baaaaa3f30fe619dbd55c9257aad2de960022dacdd58b16ff0b13c3b9791a26, 0xb3bb68bef27817b091381e76035c18d4506416c046325e2a9a4b23460d881efd),
  (0x9fd6b0c48335f46371e25cc38419a2c87c64a586c126894315bfb8bf5116f937, 0x292d51302267254457d57b39ae66bee06f6fba60298c21fa4bf0ba3ce8ee0e0e),
  (0x048c919c2de03e978a9158023474a89c012f59b902839986f451105dbab093b3, 0x8eaf5179a1057ffd89bd9042e1b7994b791ed89a034970a5c476a2b591071cd5),
  (0x6da8e4f1424f33fe00d08bab2c01148d87a8f1d8727e09a66066e2a2d551ee10, 0x80c0d9af81d80ac4dccf97d8d062ecc0ff5020103bf5cb19466d17f0cf9a4e71),
  (0x4d1395cc6f6ef60e58e8bb803bc9bc1db0186ec67d5cc3dbe87771d8033f2876, 0x3038d71adbe03e51ed4878ca741b7eab918e5f23110a5b53a73c62d6186244a0),
  (0x1de6ad0ef3d56191f5fa6e2bb1d6421821ab6069a0b9b4cd840204b7a93c3246, 0x8b972fd5e6f6cc01de8a74f2c65f0cccc6df4c6b640e87b5570aaa88ff1929c7),
  (0xf1f7f91a5e046d9d84a1d10e4145b6c5ba7e45e610a5e4753fff36b60b846531, 0x74c82828fab8224f91f78046c9d73deb951a1d4af199c15e0317a69244de90d7),
  (0x7ce2e57a5dccef38ff0d693cd642eba8b4073e61a7e824ceaa6778fce7560b90, 0x7b6dd71d85b6cf1d2d715d72da2fc17783a06922098346fd89c2c7891df1ad46),
  (0xd182d410a2a0bf50c380ddd0832c8c82edd3992e328bf5a9c60a6d0a73fa9cb0, 0xacb8df03190b059dddd6e5fe0e19987ce8b1a0e9caf539947d9d7438d9a528db),
  (0x812fcc627bf5a8c5bcbd191300e540511f63766268c43bfd53703a328300129f, 0x617bbc873bdbb209426b6e52790726b772f4e00a694759e83f969d5f29fb85da),
  (0x0682238fba8c9a7a137dfe593ac09b9b812a4096e81536a8511f8bb997aee317, 0xfb7535121d4d2b62c82eaec26fff9d336a34e9aa692ba6337072ead6aeccb4bd),
  (0xef1e0fa55c7d91d66e62fb0891cfb26f65d38260d5f6a67c1a0445ff1d7aadab, 0xcac54f60616baa423c931590f50a503c017cbc09fa7c74b247e7c7ba33db72cd),
  (0x044c4ab212312f515f9dd6fc9862a9c697d3a70d23c761519b6cd380b2369f0f, 0x62f2497ab37e36e9b03d688362fce49049e6b862cc7b826d035ea0fd834a2ddc),
  (0x470d2d35b004b3d4acf2dc138ee617b836bb5276e8d10af704b005b6c6458293, 0xfe797ecc219b018bd70bd4edc0f600042bb75c3985657f9c06790832feeb1b77),
  (0x98abdd51daa4d2fcd6bc6833d095ad09daf9f3dcc939eca59b5bec2a753aebcc, 0x2462e7e6b5bfdf18a5c02aa07e6ecfafcf7c10e02325a23cd9840a318d168be5),
  (0x5d3eea67a0cf3d8d72039752596f2cd368dd485dbc672a29ab2d8a8ba0cc3f12, 0xc4dc21e8645cd4a4bc753a6d76b50f858f144a4014026c0c810a1a81e6602671),
  (0x21db64b5ebf0aaec1ba19cbb0b4c19ea802b8e0e05011c6fc5262dea521d0378, 0x6e7c824e1d154e65a7eed31b3efd0baa93a10aee1bc44a141f394ee970342f9d),
  (0xf44dd195df277ad52d44462d2d90aad464ec4aa805b7920dee23fa819966e7ee, 0xaca9d7210797e1ef33a800f513a977b41e65d313fd8850908d6471f1bb46b6a1),
  (0xe0c504beadd24ee2bb9f0d6bc9504be39970a3f31eca7cee9a5a85a0fcff6a17, 0x66fd0c5d6649028b145d4fb18b9286aaef1a522765bb5fc47e09d95677fcc2f4),
  (0xa0903c4c1db68007278ddd22659722ace635e186aca7b16698857ceb1bf4581c, 0x97197ca3d29f43fe329c4b09e040319031b49c14b96abda2366e458948f21402),
  (0x1332d0814c7de1cefd3d4da20361f9d1da1a3bde55717c8f8073dd1e274983d8, 0xaaa2f406e56f4e71af3dffae4cd3556717db2e73f54f1c4a9b7ef7a3aa6d0e10),
  (0xafe4ca53548c04218de3bd8b91834e0e9594eacf45a8d8c68966759e7ace3fc7, 0x9ab186fb9c11ac9ff7a58f2bfae638298f671beb6b891a3afdd7e856e6ee81c6),
  (0x1df0fefccf26be03ccb4529fcb73de88046b7739fb040bcd8d6eb36910b5be76, 0x99ee86dfb06c504be9db1e347e99a4d9a8786c75bb3165caad7757a6bcfcd027),
  (0xb074d3ddad5fc70259ece47c03d08fdadf87a7344295989e5b7c2dddc15c9f0a, 0xe6df62f6766e644725c58f4fe11531852bb1f77b2a6080072040790351a03776),
  (0xd5c119270219f8a17932d98e97c2bedf5de47dc72f0f483fefb3d1beed51275a, 0xa890cd319d1dcd48d28d9fd3a26f506a5f88434a9dc201729d751200a73a294e),
  (0x45929d2668bac361b9d9c24057d57838fd1a13690ffc8d000aebaec170f4d3b4, 0xa418f5d6c91e2f411aac7578ee1e51344b3c83e16e4744465a2cd06025b15ca6),
  (0x641b2897cd79c98d63660335def09b53860ae7ed510a52246936fc8a213ed68b, 0xd85a23100265c27364dae5199d9164f479c26f42648b193729bd38e101110f35),
  (0x92dda542fe80d8f1e8b04ea41105ab14d144c4cb8d9ea2217173dd5d4b07e2b1, 0x62db773e6a5ba95cf7f4ea7f3fad88c48b5ea9651a22cffce9982fa8cf03dce6),
  (0x46f31c015ceca2f50ac74cc78bcab987fd46c69a315257cad20f02fb93f24567, 0x583cc1ec8db9b00c1bcd9dad911f816ce50ecc37e1fccd0240aedb59888b219e),
  (0x99a7ffec5b6d011ff375e2454be9fa28fa08a6f5b1b2c169f3cd2e66a483bf11, 0x7cba1423d560f252ab5fb98d9d4d05bc6cea00ae374aef5d6a3ebddbc4ae62da),
  (0xfff63e0865fe5db37f1166b71b6fb16f1ca66ec3bcfb287949b2cc21208490de, 0xd10d8a69848ff27d0e24ed50211c32b4b732ed8039de3df4b8345abe8b2610be),
  (0xb46bae916daf30afa4aa6bf885673e13d7cedace10488927c1074398ed4de248, 0xeb84c4c7d5a34c79bcfe8f26dde2998661151608d4b35e9707088472fcef7ad8),
  (0xbf01e9b8a5c1ae9f9fab4d100ba96835891be86da147bb03c1eec55c164e1214, 0xeed62a7ba7a9dfbc5086a99cc2d93854d5c74c2685b91bca6b4de139b186ebc0),
  (0x369dfbf0cc3a6d134cb7be22b65186dbbff750a503b660628778ed6f76b7618a, 0xc8af82f67c991693bc142b36d0cfd1839edac3f940ed718ec7dab26c7191a321),
  (0x018d12afd3c239d835846b9568b81afee6d7c87fc3a55cdfb3d1e4d897ce0b2a, 0x081574787017a62a854470a3a50162d5e0e42453a3b882c62b2c620801206e15),
  (0x2d780357ed3d52819a1df3c525b44aa1992039ae6f1458ad18bd3fb4820357c7, 0xa0ee0ea6649254aa4465a8b51d71205ed49a7998f9df4fc458cf7e4dc77ad4d4),
  (0x233d6d54321460d2dc5bd6483c9d61e76c87307335c262b94b5eeecfab7bd771, 0x54b690d146b8f781e03fcb3d17ec8ef32544595804d78b63d20c5626fc195bcc),
  (0x6a5acf73743c9df7ff4fbec11a30ba43f51aabb9084f418c82fa2c8a21230646, 0xdea5938ad665bf99a689080bd61af0ddc3de68ddecd5c1da1da2b357d635b4d5),
  (0xc446bc526ca007e911252d50048e63b501968aa6a5a81cd80231d71afe637294, 0xb178d548ff251a21f17f85a6dca3291a9361fbf59e09a05cef8c50a696d6134b),
  (0x6b745f8f58c5d5e2425cba4d7de35102566ce1bf2fd5d60887f6374ba4df3915, 0xef385ad9c7c469a54ad3d387ebba31563190f9ed3b989a8988402af663122edf),
  (0x3f1627de8377a262f353dd4ad529254620be0888910ffb88b08281de3f642c29, 0x5787c0dc9fefeb9e32618f65a348f55e8f3bf62674cc77c3a5faa013eefcd638),
  (0x9193ceca3af486491ced1b362bf9110888dfa9934e10690df1673aa2d9a23e44, 0x2cdf57352feaa1ac2f485da0c04079a56697b037975fee6cfb34327d2d738fc5),
  (0x10441aedc196f0ca86bb4fe1163b591a7973e32b4376090c76944420bd55659e, 0xb642931feda65acd30b0c7db71fdbbd86c11b437a4afacb13b431f4a045ad915),
  (0x03cab91b7156881cd06d60ec693dd031a73bbd0e6b3993a14baae6e89c92b235, 0x2cd61ad4c1c0c75727434988a0181e06485b018564bb061ad615862f1db3574b),
  (0xafbec0cabf5100152206021e1f17b70d8dc98d8b622390293effed5a2ff9f403, 0x78d1e1d55a57cf5148f06620feb10fc0306dc2b58a02dcf59fed716480130dfa),
  (0x6e31318db58bec077e1f740764250c9e88afbd4b3b7431f9adef8c5a192ef710, 0x22a21cf2cba946504f1eccfff024baa765a5dd8848c36a2afd4fc4b824f89b4e),
  (0x79ea8897a27c18398112a1f78badb73d828983a5002ec4ba95d29dee42a554f7, 0x10e913e1564c2dbcfcdea8b6af2b5127f49af791b262a0bc8969a5a7d065fd83),
  (0x86b46e1ebd7e11e6795ff06847bbcc3be51c3ceb4ce5729251239d14bc21ef51, 0xbbe017a21278c2c98abc6dfd31d294d4d72fe5056262342e0ea6ba2380041ef4),
  (0xdb652edc10e52d0104c0d06360b045bf322fbc62d01771b5b1fcfa09b389328a, 0xfea6721331e33a965ab7bdc5dc37a90dde1b3b2dc1ee50e350ef932c03ec6627),
  (0x15cdafe7e52369ec93ebfacb173405bb38476cc6b8cbf0dd6482b5cb4f2999aa, 0x4bf2c38a9dd67faf785101bda3b5545b648b60041c99a4cdd42d5ba4d935b7db),
  (0xdee635fa465d866c5c552313aa686d82e0e9921a33ad4fb8b1aadc634442449c, 0x774ea6ecfff24adfe70f930ad474cd08eed748a6ed42e02fbc3c224a18ee6e8a),
  (0xfadd5f68c546a97df23e330368295a9cf0d8edc7bc8acf1a03e2de1cf3480d4a, 0xa5a454126619141a16fcd52821dd43f4bddd49d5671bdae2895597ad96f8acb1)]

/-- precomp.rs, "1G..64G << 112". -/
def row16 : List (Nat × Nat) := [
  (0x83c0440f5432b57a9dc756a8481732f4e6425195075a1a788ce9b6bfc360e25a, 0x697b3d27c568ea39ded14b0edb052be72205910ed135e051c670b3f1d720281f),
  (0x071279a44f3644521cbee4fd474da44928c2e0ab17f6515c2e599b9afb3ff9ed, 0x6e9fccc6a27ee34b190385f667597c0b3ee394e85fda51c497abff6601fbe855),
  (0x4f57841ee1ed3b14cf89a7f393d2f064f17256bd428e240c0b89de9314092ebb, 0x3333e4ef73ab4270c8e5424fbdd7eed5856aae7203f1c3d04ee14405e708d855),
  (0x17512e2e9f5694bb5e89a3e734931b4cc11a3aea782972053bc77adedda492f8, 0xccf109a333b379c39c4f9d16f511145d232ea4ba08c7ff3e5dc349f3177bf8b6),
  (0x208a54ec0a892dfbe3e1077308f3ed5c7ac6961fa1b5d4d8e75e7a88a1f25897, 0xa3eeb9a908ca33fd418a7340ed704da50cf70a97237df2c8be826e1978660710),
  (0x8869d0d523ff0fb3c09606eca0c2fa9404d286d42da6aafb49d96233169bca96, 0x152a733aa2f59e2b656bf945108e2d49a92e2503240c14c9a99937e5d0150d65),
  (0xa184307383a9cdf2667518ef938dbf9ac0af8e93622103c5b4323d588434a920, 0x10581fc1594f70c574ba507f68411a9ee5e5a325c75a3d61350a94aa5447ab80),
  (0x0b0da855bc6390a9721ebbd7c259cdb87bedfb4d488e0cfd60e2857080eb24a9, 0x9939b48bb0dd3ab733833eabb162fc9ecdbf1fbc6c32e8462b4d04dbde314c70),
  (0xb31e065fc23a17bfceee50575ef1c90f75105f3081c4375c5aaa98a7cb0c9c8c, 0x84564765ebb41b47b5d212394391c65bd363f3ad62ec89965364d275d4b6d45a),
  (0xef0a0c46ba178fa022f975d99bd0d845acff3b6b570c2a6620d18ecc37107c78, 0x06145e627bee5a365b6ac4f27338af55c49ec674248612d41a41965176b6028e),
  (0x4bedcf6ab49180ad967833ef222ff8e21c1e1f6dc40c78be33e95d07e75746b5, 0x954ff2257bbb8e74f7055123aa3a5bbc2748887c6ddfe7606b37e9c13d7a4c8a),
  (0x2775780f6fc5cbcbad6748e7c1b5069255a549b0cf168154c42b8ab197c3dfb9, 0x002f1085a705cb5a47e6b4fb9969eace8c69dae13fdbcd564eab80b8e1c9d7c8),
  (0x60deb4c9d9bac28c47bfb91b2a62f27db4ae9c86f48105684e23ca446d3fea55, 0xbb113eaa28700385914ee14e1a3f8a5b4ee682594494587da892d8947de6c34c),
  (0xe09ed750886e3081c912a118aa18179a7c163d388908cad181ca03b92115b4c9, 0xc626f42f4cbea8aa51592aea833da8b4753cacf78e732f91a676e3fa26f516ca),
  (0x9d31e20dc538be475b1e4e24fe818a8600c0e52c34ef7316ef9dc899a7b56eaf, 0x8e6b9cff134f43454121086e0dde9aefe44bbc087c4e87c422eb932d3ed68974),
  (0xec8ac9b30684e126ace26309a20792dbb905f2c8780ab95496892c1f711b0eb9, 0x4e5686226ad1f3945626fccf1a8e3b3f60121fc19fe3fb24486ad8b6b40a2447),
  (0xc29b6e557ab136e9451465d926b318b7e0df8c771041b5fbda7aae0d196aa5a1, 0x377c02960427d58e54ccf9a05a03abe4b5738de364454a762c2ab48b71148463),
  (0xdf18fb2083afdcfbdcbfd31400fbb80514373f2ce608d8c573f5f0b92bb39c1f, 0x1b75dfb7150166beaa8dc8b68b0a7d7ce958532d87f650fb81a57f4242b3523f),
  (0xaf8237e0d5281ec14fd4f4f9a808c3e867e2d6b59834f59790e4f7c92d7d1413, 0x23b73e5c14cc417f8e4a5aecc8ea7650c5ded6b1a5b26c0925ab5fdc84687cee),
  (0x2e014701dbac488e8efd4060bbb3e5d7b61e6db578c725d72bfb43183037bf52, 0xb2c37582d07c106ca591536dfffb15efb70cfd0579634d08ac75cf9a360aa449),
  (0x745a8fefeb8ae3c6f649c3bad0a8bf64c52e175cb0e12b03b4293fdcf50225f9, 0xf7a71cde3e4fd7451f217993e9ea5058b1732be70bc4df4830d7e5a358321bc3),
  (0xaeeee59249b22ce5a6aa2d055815c2446915c7d969d8308286cc533e894c5bbb, 0x4df69b215e4709f5db6bcc1be036e8f53a275c1f16b76f2f89e39d1378135486),
  (0xa40e9f294860e5392ebf520ffde0f4fa622118bb15a85947a188b2502d0f39aa, 0xd754b54eec55f00250e5d16f1cf095fe849a33b97e80644a7b6a51eb22b57f0f),
  (0x2b33f804d6bec9484ac69a8f5a9a77740b0c59e9066800bb5cfbbb22236f4a98, 0x24d80f0de1ce284ea47a249f155c31cc68956d0f4e599c73b372929532e6c466),
  (0x593cca38c91bbca51eb8ad33094cb960e6331a7ddbb16647cd821dfb988baf01, 0x68a7318d3f91e55f97834cd6dab6c8f640fa0309c04b6490384aac8d26567456),
  (0x948c5860450abdb3014f56484fa57172b56f8ab22bf3bdeaa00fd04efc4d3157, 0x6bbbc6d9e57325167aedc1ceb0df5dd03e5168cd0e82938e342b5df00ebd4f08),
  (0x75959cbda2d8ffbce4847fb1a124fb8946fd72b7bb9a6c9ec7bfd486605daaa6, 0xaa73bb7f936fe604ea4ef6cd999a5df1368c92e6b80b499d42579f65c8a588ee),
  (0xbeb1b6c7d0053fb2b7cdff060ccd601386eda86b8b7a388bf347a70d6457d188, 0x2eb5009706ffac7e8695e71e9066193a1bbb384f776189b20b02238799240a9f),
  (0x540b8b0bc42295e4835db041ff476e8f6f3fb3d1a5aaa2900654a9c04a7d2caa, 0x57a5b4796b8d9afa2e4b1090ce9e680b9a74075a56a0b638a5c73ac905e214f5),
  (0xf505be1e062559ac683c462e6669e72e097e391c7290c3070dca48e726bfe65c, 0x8d838a9560fce6b8fd169d5c1f6407f26431ebf69cd50da85fbe3ea1e3a3035a),
  (0x183bf494d95635f992452495ccf9ad96dfd7dad350c0fbb22a2bfa7f650006f0, 0xd61e1a6c500c34a9dd98e67dfd43f53e505385cca543109502d5df434a7bd989),
  (0x62b23a1001be58492bb3a13d88f7e4338469c4d0247743d25a4b46c64a8a3d62, 0x4e65e5e61c4c3638643fce6117afb01c454e7fea7d183f3ee83596b4a63d1a4c),
  (0xd985fe37ec752fbb98b078f53ada7da92cfbfa66ae32850641d85ea1ef74c45b, 0xa27e0dfd90aafbc4232dccc4d2b729ce6f9a55c72d78136deece68fe5a0148b4),
  (0xe2ab75b72d479c34df145fcf69a9d412a876c5516b706d149647445212b4603e, 0x69a79cb1c0fcc4d96e51c7aefa835f22c61389925d359d1012df9a761a23ff97),
  (0x35afec026d59a62b226fb6149aff594a3079ca633350ab79f57f350d594cc7e1, 0xd8853e7c5ccea6ca44c504028fd1797e58da17357d939a579bee46f406ed2c6e),
  (0xee471b94c1cf1cc40f2da85012e1a9628965df8c495ccaeb4065508da35fcd5f, 0x8d749384ea9f9a5f2867f8b23aef4f88704958f581de3591cef19bc80a08fb75),
  (0x37a222bc958c454dd96f725db6e2bd6b5be948f37b92d8b61b3855378c9049f4, 0x84a461c87ef3d07afb567a7ae87c0d1c46f07fbc1346f18de7c61abb8809bf61),
  (0x2e03fdde692ea7064f3528b6054321c324d948139dfc73e10a5adce6d9278d98, 0xb2045a73584a24e3ae58d4b21bb62b8f1a8bc73f2ca3c05510e6061947b533c0),
  (0xdfb693db22b361e46ffab3936ee3d5cb478dd1ad6938a8103ab3d5afbd76e195, 0x850e61bcf1464d96e8c92f25d39bba9acab4b4ef08a2e762f969449651dbf1a7),
  (0x48bb92b3d0c3ded672606cebdf690355faf6d2cf74317655b7e830e3dc09508b, 0x91268650ed921878c2c30a5996401d69f6cd7ac9d5d5f01f65b754845c7cf892),
  (0xf8da07e3ae5ff20b377f61d554f169d343c0baebc8afdaa9380bf913b78c558f, 0x3001122fba89f982383297ac2ad8d27681c1ff2b83a29b21b676c49da8a90ea8),
  (0x80f5091e88069cdd56646ef85d26b5ef246c14827c3e6e13e1d794be6718e448, 0xbf8864874384d1a096ff320a0d0ff2a902e915b48471e8c7c5992e2f724bdd38),
  (0x32c8cdd57581a355fa40a09fe7acf117d5f75d12cad800eabbe1e6a6c93f72d6, 0x41bcaa030b8f8eac5691afcba90e83f0a8afe5d738ec3901742219927023c499),
  (0xcbbee6e28b6504361bc8fc7c03c6ce110715281a7ad81965e38b5ff98d2668d5, 0xab8bfd56844dcaef2e9d38c64d0b501817d6e066fe3ed31506b00fe80cdb9808),
  (0xf10e2fa8d2390fe6bbdecb8f8e42b582f77f3b6d314bd07a42894a59513aed8b, 0xcf98a2cff79492c4d87f77286da789a84d59ea5050ee32b0efb9502262a2f201),
  (0x834de6ed0278a0af5aa8e82395f2884aba044cf53990b9d0f9577239720943c2, 0x5c0c6eeaa437832a7e6d97a277d00b769259ceaa6f7ab271c8e1ee9a5f25bd12),
  (0x78f8514698ed93644d2bfe358632d951abd7b3750d991ee55232c20f5606b81d, 0xa69b8f7fbdda0fb53ac7789c5398967f0da8ac80a789230b951873f0f30c3282),
  (0x03840fe883e3afead856073968421d771b71cb6672c49b66e5db77176add8545, 0x5174cced4ce355f4c88ac87be8ca160cae243fb9307f6726b391dad51ec69977),
  (0x68e419d4d9c969845b75283083fbc7bffdcc8da27817335d98a35966e58ba37d, 0x1e22cd17ed11547dc640a94b8f8edea688940faf1fe977bc409a39f402a40380),
  (0x06fb438a105a2bf2c67497c8837cb36360aa1b55c1dee4e7e28568ce59ffc3e2, 0xf544607d880d6d287f589a05c73b7cfd1ad9095d0670db1030357ec4500d8e20),
  (0xd7d49c6c27990da565c91cf66fa214a0ad8591306ba6577b17ba93b1a20ef103, 0x7916a1f75b63728c2056ca5a6bed0467bd4b2502eeffbc33ecd9ec8d20bb569d),
  (0x82546a938d011c68f8e1da740494a6218973466497b56810d4f9497d53a4f566, 0x5a16ad61ae60812515356523b4b7ea4352f8fa9cabad0d3e1f3acb19c61ac162),
  (0xc644324e68aefce3d42c76070bc6b1fc5f236b1d5029f45fb0bcb87f4faed184, 0x20ed6d6ba2cb81baadcaee553ba59cc7c020807713ae19798e191d595c5d8446),
  (0x767238b797fbff4e4ee2c7c49caa30bc60f12d6897c0b87c0952ba19b6efcffc, 0xfa94dc6f0a40db4e9fc12bc86d1975433279e3dfc2a37737ebc73921501b5d92),
  (0x2ae57d735ef6974ca52f984c05d98d0c87c82146ea8235257392b41a530ccbbd, 0x3d81a25bf68f72d5faa9079a0cca9767b1a007c019647a649377f7bf3042a6dd),
  (0x1030f0a66bed1c77c0c22fcf0505aa6f786221509045447d752067f8ff81578e, 0x0a817bd306e81fd55c070e728e677e982d7989c7e6debe8531f29f151f0bd739),
  (0x2a570c20dd5569460f3e00e17729cd9a48d0995aab20e64ec110d830b0f2ac95, 0xc5135ae4fd0fd6d155e2b1e63530d76e2d014ee2cf615498912dbcfd4e86214d),
  (0xdba3788651f57e6c2dba1ddb14c6e5fdbb8e9893e70874770066273ad4f3049f, 0xd726e08343f93224f5c6aa3b67872c371208bfbf7bea56425aaee0a65a72f2cf),
  (0x73b681d2bbbd3017c2a3f23e833d50dec0016df1df0cd2b31854daa5061f1658, 0x3fc9eebd63a1b9c6e1e13c910917eed49c847e7d857164212f046dc43ac343c0),
  (0xe647b782922f066e3820179f4745c5be6335ccc2294f33190f816a727fe02299, 0xa627278bfe8932059a8feea26e0e8282299bc2fffcc2ecccc22e49de02cafb8a),
  (0x658f5c2f38938808a4d8be0a98440d9ff4ff6b132e766402a7e197337933e47b, 0xcca95dd38a6445b2077b039b43c47c29fa0442693137b6ff90b75677c95b3b3e),
  (0x24d3be78a8f101996ca348fd5f1d4b2e274f8e68f736a1b10b498ba42333fc4c, 0xf6a7c58e03448418847c851236e1bf62a6e7f1635b982e518535f858ca14f530),
  (0x9f323c801262a49633bc3f4822526d50864f91956e564145583f3703f9374ab6, 0x9be0fe5121459c2d5b68f71c52aa0ba670da183edf8a039aaa97a7ae3f046a9a),
  (0x73c2f434de6af11b2f69d39eaf7eded533131d55497ea61cc1e17eb6cbc613e5, 0x76451f578b746666814e091f3e6e71cf5f06787cb833c5c24ca52493a4a375fa)]

/-- precomp.rs, "1G..64G << 119". -/
def row17 : List (Nat × Nat) := [
  (0x4274dcf170e10ba151981c3403b8dce1edca8787b9fcddc680f9bdef694db7e0, 0x2be2b2ab87fbd7f5c4491e8c050c6f58d25b1670ebdb1866f72743b86def6d1a),
  (0x7da4a795c132e92d702f9a91bd392a51bcc33f8db7c4e7603e0e5c9dd111f8ec, 0xe58ffec1e4fe40b8ea3a5082694e9e7854febac802e322511a0b0ae30bb1151b),
  (0x174fc7272f57092ac04215cfc135584edea75f0dc0e7b2e8f85592fcd1e0cf9e, 0xe7fb62f48d5ca954f9fe08f7f5241b9b504caccb5eb02a5ae7277877eb930bea),
  (0xa66adbf6150a5911c4074fa75410ba519f94391fc0d0d915fbb8349d29c4120b, 0xe8234498c6b4997a99da0f53e820219ce0f27560b9e1ccfcc164543c34bfca38),
  (0x00cbaad6f93cb58a418e0b5ebe8700a19e56eb10b0521c49cfb88b769d4c5423, 0xdd6254afac3c70e389162d856bc0585bca4979ac1f347f11e923fbded92a5e67),
  (0x5b6304a6f79a44c59f727d735ce71ef656e2e847c5c4d5937b23c513516e19e4, 0xf935381aba1d0698e054b8545b7fc19f1adea470fe742f836638a7363ab7e433),
  (0x835142c39020c9b0ca274c6b7090055a96239e0ea949f729546eab2d799e9a74, 0xe856e0e7fbeacb3ccc555d6442fc72f529f2c0851aa3d39ea405667aa2e8807f),
  (0x6cb10d56bea855090553a0c26f4d9cb965035ef6b2513982b5504f9d918e4936, 0x27c7032b730d463b3d7e637c8502a96b16a4d3dd672b726848d957b7a242da11),
  (0x7b92420a23becc4fc98d89a3dd9c3c03bacf969d678e32bfbdc02b18e4136a14, 0x08945e1ea92da585ec7f7f76b13d051a9f969d0010f28295d4b41f78c64d565c),
  (0x7fa003d0e784bd7d510b404d736fbf48e7d09e89247d441d55366b7d5846426f, 0x5d40da8dcddbe0f82c65957b2e83a76a49e0e0a135cb98db25f7614f17fd9596),
  (0x720317177c91b6902aeab3dda38365a78918426dc2aa4823f2b8c405050bad24, 0xdfd7cb755dee77b3bf656a5f6f60aafd478a255de99eaeec8b00d69960a94120),
  (0xd89bc8439044695f8e740e7c84ad7612035564792874021737f68bb4a595939d, 0x612d8643161fbe7c06d2e6aaf88a888e562563bb9fc0b074f7f3da5d85a9184d),
  (0x908857354b66664953388426cda2d188b230f30429aa8511465edba7f64085e7, 0xdcdbdf43fcc56d707816ade062f5eee365c822945fae2bf06f02ff9a652f54f6),
  (0x4d03d7d2e4819a3589bc90460b431163bde3ef77cb0869ea9fb3bba354530bb2, 0xb280da9f12bd484091dd88e000ffedd9216db3079c88a68633ae4f9e43b6a782),
  (0x7fd508e75add0ce93fafb3341b7ae030fe14008a78be02a732a7cb8a1635e741, 0xe0c96742eab2ab861be2c3361c878da20f229c0a8d40964a72c83219d607ad51),
  (0x548234a4011215dd52b8c6e6bf5d15ffa7001f6c8e08ad53458f86913e538cd7, 0x8cbd665c30a0672a55a3aca448607f8bb0ffeeb64a904190ff5a9d2d3d5b4045),
  (0x7230378f65a8aefc6b763e5d05c1224802da2aebf3f6e68387f834e042583068, 0xe84d402cd5524e661b8605136c9c552e53ab041cb3b6252493bd80b571e8e5ca),
  (0x17fbf56c274676ac2965a554ac8ab0fceb0f6c7dd1e4fca5a37f3573f37f5937, 0xdae327a57d76a7d1517a14b385d53bef41fc8f88102247662e2f6bd9acf7d720),
  (0x21699a1c2d1535ea64970b5227392a9233aa189b37c1bbc16ad0a065c4818267, 0xa81497d77b9e0e4d9b69440b72c0b8c7e318605999c83cf2cd20779cc2d7a7fd),
  (0xe44990c44b18be1ba8da81e311a353309a7f67d76361079e515d5c891f5f82dc, 0x6830f09a16adfe83be82b0999394b8d3ece8aba78dac9261c7d5ed95af103e59),
  (0x4520304dd3fce920b8a7661ee8a6329a8b20bd65caff9e02250a29b488172d01, 0x2244c2cda6fa1f38f79970093464f874e07f52885bffc540ae45da1f2b47f7ef),
  (0x74b043a7a8ae37addf0614c15fda0fca5bafdd82c82e7f1743c41ac194d7d9b1, 0x5143bdc22c1953c24a5883fe67e242b115d5437e9c450f2e3ba6afa19e71734c),
  (0x2037543b8c5e70d202375f10c3486e08363bf9a89a9cee08542b8b53fc5e8920, 0x6badceabeb372424f8455fed803f26eacbc1051e8bc62c3b7109bccc625640b4),
  (0x53505bb81d9a9ee6b1298d36b95c081b642465951b176d99a2a9ce7c6b53f5f9, 0xdfebced93cb0bc8e9f1694bbe7eb4a6ad07e16c98afad4533f6f9e61f2ba70b0),
  (0x30e4587f2df3dcb64109e07c689b4e64174311a2386107a692d3dcdc53868c8b, 0xd03d371f3e158930464c45812a9a78036144d41d0cce43ea841aea310811b3b2),
  (0x4602500c5dd997bf4ebebfc9c2e127a99f7a1b8ca5b61272c676d7f2b1f3390b, 0x9289eb1f4653cbc0ab693d4bfee5e38b058eb37c020f09c17f09771c4711230f),
  (0x909e4ea048b95a3c36aaf7d2e90dc274d2aa9c029f0121afbecf46abd51b9cf5, 0x87e947de7c82709eeeffe5b3cfb617e2672188a08b030b3ee6b704966f32dbdb),
  (0xbf11c4d6ac6a820e42e69d1e3f69712ae4d4d7910e44eb82a44d2b391770f5a7, 0x6a61e28aee25ac545d72bd165450e878d6b4e81c449d941cb5e7f3e542c4224c),
  (0x2f0956566bbb977b32f7a4ca5afc14647512f30d0d18673f33272094e6f1cd95, 0x43d7563e0386054c4ef2b845c613acbe02c868ad1ac07369586f47caa8226200),
  (0xac2057825990f6dfa8b64eeb9b872042b5423df226e84d0b54da9dc7ab952578, 0xff807ef8d6d9a27a29bc922e9436b3f11a79c3e4aab273af4ff696eb21f4c77a),
  (0x011afff4c91c1a2fc0b169802818ee7dfb10b2e85b5e746982acea3d778f22a0, 0xd115540f7acef46236bb283af2f4db7531c081a5e72e295f95a6d126ad124418),
  (0xbd41f01678614555915fd5c5caddb0a921e46f65fea990cac7f3a8f833f6746c, 0x9d59e956e899a39af3dd20fe5a969b7f8055943614dbc204346f4434426ffb58),
  (0x408d0596b27fd758f071ac3c65340ba4034488602ffb8fb8f1b0971c8ad4cf4b, 0x9acd518a88844455b9e1d560485d9002a4aac4a5051e8ab5e7c78ea498c364b0),
  (0xa9dd82cdee61270e691f0f045e9a609da48af70ddf027972e4ca688fd06f56c0, 0x4cdada011c67de8ea7b4a09cabf47d039fb7ee353d6ca3bd8903ca63a0ef18d3),
  (0xc5a0cacfda2cfe25695d6cf666b4efcbe77fd2b64f2151a9520037499355a244, 0x0338ecde175fcb11855683dc40b58dbcf52813e89ea5cc3d104efe5cef811865),
  (0xbe182e6f6ea71f53551429b74e9c5459b4f1261db9bb9d31f9a0563774921592, 0xdf11d547a95718029bcfd2cb52ab65d39ba1afda62be8d44d3a3b07cdfc50573),
  (0xbdb42078a812c362994794095004ae71497406f421088a71099403ee02a2404a, 0x3e3be64108b295eff7c0e20066a40015283add27fcb5ed1c2b72a30fd8828442),
  (0x9b74b0ec681e7cd3b7df8fd4a90d2c53729deff38c5c6320ac127dc1e038a675, 0xc184c1d8e96f7830a184415a7d28392ccdbd361576b340c65cb5a623dab407e5),
  (0x5904bdbb08053a7378203b3e8149e0c1fde0c841c8e02432c3204f1981d3a80f, 0x311469a0d59970089ed671417a17408743c223bc49aa6d4930fc1dd1101b6805),
  (0x621ed0b299ee52b84fa34b67b1181da8f3282375e0d3ab57b189b6845e43fc61, 0x33856ec838a40f5c2a2c27c47538c201d51de67b56d540659b178de1ad990676),
  (0x033a00db220c853e7994edc3103e30a61e603f339f0c6f892522fc15be6cdcde, 0x6eef4c32595669f3bbd82980687fe29570f8781e462d18f6d3cfa409f7bb7fd7),
  (0x30ea7d67256612125b935bf6c138acb55fce462171988f9b86a9303b2f7e85c3, 0x2a553d4d54b5f057b3ce1b3c77ca9ca60587c98aae067c78ef1eb5f4e51ab9a2),
  (0x80b460cffe9e7391c57d6e6b2cd80d47dbdd5d13b9c57316c78982364da29ec2, 0x55f292a30b015ea70af42a9dfdf7c68767f9f633cc4d32fd98648cabf963c31e),
  (0xe3283f78c2c28acbab21e1d4a5013af9e504f022c393d39289e468b2cd21ab3d, 0xc101dc75b04fbdbe61673a15b20c162de83542740e291e69f38b35f6226bf99f),
  (0x8e01db0cb8c88e23c6e65860626793876c9696936c2a91548323b4c2255bd617, 0x582ca08077dfe732b5d80805ddcf35f87630f04b47a3e14933c42873893a5559),
  (0x237f9c2283b907f2ed225d00c8b115b592034001d81c68c02c7156e10b1894a0, 0x59ed51871ba2fc040f1dcafab1ae5463b725f7c158be4e950ea2f32f4470e2c0),
  (0x7b0b081da8e0ecc0157e32c9527f0a415180b12fd3691599f6e0f316d0115d4d, 0x6974e2b176cad3ab79b7755edbf864fe99b289c74d2526966dbaaa8abf4f0dd0),
  (0x2d737e7208c91f5d88381968076be758e7cbdd112ff3a96d35dbbee206ddd657, 0x66f52b1e098c17b1f477ec3772ef093398aa649d945fa7a15f83ab6286ec3776),
  (0x63272121bbc459746b1ae617a5b5149291aaade7e4e86aa49eec58fbd803738b, 0x0571b80553233e3ae26d16645041c88f0a8f79a93321a4a07e0e28f0862c5129),
  (0x4f5f638e6eb93f2b9426bd39a1fef31455a9e4ed3c8b84bfd1b0ccdec9520711, 0xd1759606ca511851d2964a89316dc7c5d63c13214d42d5a9ba2a1ed32bf9341b),
  (0x3076bc4064eeb0510a83fbbc99581af7b7b5ee456736925ad8a9201ff9e6ed35, 0xa70cb65e38d3b06e2cf4cf9c539c08c9270de898238dcb785511c98c02dec312),
  (0xe32e8985ae3a32ccddc7d5cd161c67bd82c7b65635a0c2b5b12ec10ecfe57bbd, 0xa152ce2c12c72fcd1528392d24a1770ae964ed022427fa1a7aba9444d11a5529),
  (0xb871bfa52e6f07a2ea32b7147b64b11018b4c290459dd453714553a48ec07649, 0x3b0cdf9ad172a66ff77aedb8bd539006fbf250e544aa90f6b67112e59e2e3c9b),
  (0x56facb07bb9792b147df0f320811434505bb67ec741e4da7edf69feaf8c51187, 0x9841357bb59bfec14f33bef7b0339d7962d103f4526fba0ff3e007e98f6229e4),
  (0x8750cc3b932a3e5af95872fca4108537c3c7180b7fdaa84cfa8dbb59c34e6705, 0x1d86dbd32c9082d8ca032abc6ecbb493ffa0168b2e59b2e9b61cc69db7275d7d),
  (0x571b360eaf5e81d20ecd0e331e6bbd202c9a4699cb18e169ae1e0b67e28ef5ba, 0x44bed022e37281d0a99726351f8dd4466651788e18880452cd9fea58101c1d45),
  (0x4343b5fadccbe0f4b8ab5ba4f4c1061df193678e13144fd8094b2b2d33da525d, 0x7484d4e0d629e77d46729b8cbd21e1d747bf6d2df7611d93a870237163812713),
  (0xdc8d3644ebd97a9b896714b050ca535b23d8c484da06a2f7830e6eea60dbac1f, 0xc7c54253a00c744f2537a349a6ab360bf79bf464534d5d9c106ef9fab12177b4),
  (0x6a0d41b0a3ff9ac915aed36f8f56ab4261ffa5c8647f1ee7b3c7a047e5911a76, 0x7e89e38fcaca441b1cd926fe903ad461be9adf816b72be9668f469f5cc30d357),
  (0x3c6cb4fe11d1c9a56894f312b2e36d04363b7e764775344cf0f82de5facf69d4, 0xc08b944f9f86fba9dc35c60a678c5e065e9a85ea249f326c85d9c3394008e1f2),
  (0x13879cbfa73791833ea5096b42125dedad8f3e31ff3da3c0de40c02c89f71f0f, 0x07a5893565ff431efacf894307726368359c2ea667646c5e6f4714a56b306a0b),
  (0xedc35c545d5eca2bc068a85fa58ce769801fce1d6f429a7624d661d168754ab0, 0xd96d095f56c35e120f20f21a1d8db0aea0184ebeb8fc7167ea31276fa3f660d1),
  (0x93109d803fa0845a50cbeae219b4e34c1bb772b9059204b6edf402b5f8c2a25b, 0x9cc31b46ead9da929e28c65931f3ba9b3b438fe28807096354f7ccf78ef59fb5),
  (0xc97ba6412203f18af8e3f715a2ac82a5dece47cbf05af2353c2f0ba9b733aa5f, 0x87fab43a959ef494fac28daff3f2814656ea2c0546af512dc3af550409c11060)]

/-- precomp.rs, "1G..64G << 126". -/
def row18 : List (Nat × Nat) := [
  (0x3b433b597fc4d8609d67225fbee6bdb01ae80f8e6d7fbd6509891641d4c5105f, 0x702fefd7ae362f50db785157665c32ecf7b59252e3e9862f44e66db693e85638),
  (0xae89f3d28fdb98e6a070b633363798a4d48fb56b46d7c35d3754475d0fefb0c3, 0xb3083bafcac72aee9bf7d47444d5a0218981752167abd27d970b89c86363d14c),
  (0x7047f648aaea57ca3fe6419ca0047bdc638e9388546a4fa5389741debe949a44, 0x07d3336df42577bfe807eebcc72afddcda8e0b28576bdba254e48a9041fbab17),
  (0x61d587d421d324f65a96a5d5dd38706391c19ac38fdce86762a8c244bfe20925, 0xfa11fe124621efbe10f8441e05bab43e2384800853778b65e87673a2a37173ea),
  (0x3b0b43faa521d5c3c27608e2915f48ef23f27d81bf34a976047b772e81685d7b, 0x00b732a6bbadd3d187b14898583b526b7f5729b41d4db8377613fb2663ca7284),
  (0x8b01ea6ad005c8d6f78d3481471e85ad436b50b6383d9de48e02f4262048e396, 0xd54b5268b541dff47a42e50183d3a1d246cdf1a94e3ba2aed3c7afee97015c07),
  (0xaf1bc8458b2d777c26a46a033b0b6d614387f816126e36243f24cf304e23e9bc, 0x658493c75254562f4b96c44b287b4bc70e1346d44261bbb625c401ba527de79c),
  (0x5617ff6b6278a05d9b691bbebcfb485317ebfed1f52ca53f23f949feb8a24a20, 0xb967ce0eee27c0114206482f695d67dffc64242e1784156a241b34c5e3c99ebd),
  (0x3d6c296632ced854e56ffc4e5238a07e2e7a563ca31ecca065db375121c80b5d, 0x5a43951918955aa39c78bf460cc8ba5bafc3bad92d686459e99d7d1aaf70b885),
  (0x287e191f6b4cb59cffe542acf2061b23e60234d0fcb8906ff8b517a85fe4e314, 0x82da4b53b01594febbf0c056b6e05ea41c23478c1467894121857ddc09d877d8),
  (0x73639eb89360b10ca43581ccc2b90a34049e832d7b74cdf6f7526791fadb8608, 0x67206444f14272ce6e53271c656790326ffd6b938072f9194fba331fe1e4a71b),
  (0x2418871e02f383facb8be71704e2bb0d9526205a90ef6860c0f734a3b2335834, 0x6fdb3c2261bcd5fdf186c1ebe587e728cc914ad029c20073d71776814082c157),
  (0x3987444519f8929a862025c59605a8d9963ece234fec49d230d014a6f2f9f8e9, 0x10899785cbb33615d7ec774993be56ca598a64d809cf7d9101b6ff6512bf476a),
  (0x4b8bc78562ebb40f323d98c68512b675a86b3d3530145270b8a092fd02eee3ad, 0xfcd576bbe177120d1d2b252d1cbfec23a5e4fb4f2bab56647d301f54413f9cde),
  (0xb88fe5efd3d9c73ab36acff8b612ca7c2bb9028eed836e8e04427d3e83731a34, 0x469e9172654efa32f41ff566b17106e143b93133488eec77be2a6bc6edea4eb3),
  (0x6e205c14d619428c3ccbba0f93a29ca7b4712eb0c1989a2eb4480f0441c23fa3, 0x0514d89c9c97251707a759acf64e03500432691d45ac8b4e90db7957b3641686),
  (0x890d432574893664d5651824ac284e579e2e0b8bab2085be1701147fa8e67fc3, 0x9a54ce4d0bf4d70031846b85f922b655bf12e90b4339c85a8a7c5e6ec55e68a3),
  (0x28a43034eab0d152e57bb0e099ffdaba916f955cb285d4f9d7f4e83af1a14295, 0x853db5fbfb3c77fb9c796096ea68e6725517407eb9ec051a0a36ffa2b8a9cef8),
  (0xe61e9a488383a5db7c82362694120a286c2676996e8a1b8b21474ba9e864a51a, 0x6449c2ebe65452ad9437ae48da12c659ab020d07ad43cd857dd750039f84216d),
  (0xc8a5b250dbc0d662bb7b9056beae170c1320886aee95e5abcc7c4c1c2cf9d7c1, 0x14dada943bccdd023ac7a5fd845398287da669121f03769f4ed81432c11d2303),
  (0x5c3bd8596ce4bd5e5ef6728afd440b8252a9477a7c933f228b84c3217ef6b0d1, 0x60ac583aeb19ea70b66142a12695a11c368d5040b7bb6cc5918b80f5f22c2d3e),
  (0xe9f147f357428993fe2d6520e6d8307f8cc08c555e2654c8317cbb980eab2437, 0x643f23a03a63115cad83fef08e7341f7a3ecd0642d4fcbb05f9c7d14d2fd6cf1),
  (0xf85c4a76e308c6823dd8752e530df568bf7c75b135edc89cd38a78abe65ab743, 0x4d8f27641a622feb4b8ec3f5a25cf493a544df3dab32af854c9955b2e68acf37),
  (0xece587091f5c76efcfd0f3e49f2ca2e57de551f970bbb45b7bb4f7aaf0dcbc49, 0x1ff5e2f522676b59f46206c0bb30af91039df8a2fa7d7ec132920edd167d79ae),
  (0x8fc8cc321f1a319e60da5705755a9b24506c1445807d7a2611f4a0396ea51d66, 0x13173d25419716fb576591db9b7bde077fa5cb8f6a7dd29683642d4d9433d67d),
  (0xf723c7f5901c928d1c6968c8ab8f5adcfc6b5297b0fe76c5ea30599dd5b340ff, 0x57febee80b5a6e873d49e37a552be23cdf7c6aa31b51dd474203c3219773d402),
  (0x75d48ee4d0533130168bd00f38fb892379d44994ae63bf75c5ecbee47bd8e739, 0xbbb8f6ee99d0e3e52fdddbf2d3fd674e3396e8963c696769554f77aadb5cdf33),
  (0x1aee99a822f367a58ecd8689dd1df499efc4bc0593aaa8eb51b90651cbae2f70, 0x7c5f317aa459a2edbafea90bbcc1ef816c14d4457d30b39c95d485b9ae8274c5),
  (0x13793298f71e2ce70cdfe424819853cda17bed6edc20f496012110754ef44227, 0x4ac3793b8efb840e23ee4b57423caa206dd1c20e76ee99363c1f3078dbbe307b),
  (0xc13eddb09a5aa43dc415af0ec069896f3e5466584ebb25a2934438ebed1f8ca0, 0x1020737101cebade3697e28656fc0558d0d5bdfcd74f16707a04204fd49eb8f6),
  (0x8ed13c9a4a28b252a9f633d479853803908e0ed48f40054f5f87e6900647a82b, 0x84380e0e5ecd5597347073ac8fc4979b53930b9b36d063363e2ef6761f460f64),
  (0x53bc377014922b11f23ab6b725693459ba4a81536c7bebdfe3b22c6bc4fe3c39, 0x8c2731bb7ce1c2e752a2954cce0fc507aa02235520b9f2a34645c8ab5afc60db),
  (0x4e83daecf40dcfd4b22c2b07cd992b4fac7a658d3735436cf39608ab18a0339d, 0x5721d7404e3cb07562731f6a6edd8038ef0c005fb0a56d2e8a34c7be2f39ea3e),
  (0xe530a00a8a32949342feefd173c07d35d1ef5e73ef1d0c051ea41511fbeeee1b, 0x3632a3a21ab6e2b6f7b5f602745b3237549de03cd322491a5d55b7fef15ebfb0),
  (0xef033917b3be20b11dc79699726314470dfc6443c9e52b9a0d3bba890ef59f78, 0x13bfaab3aac93bdc6485b697403ed068c1fc29a2c0dd7d7d0c92735db1383948),
  (0x37640487864a6a771384978c5bc504c4b003fb024c641c15410dc6a90deeaf52, 0x22f3acc9ab4953e9c7af6613f21b432c62260a575e47eb1105991bc6222a77da),
  (0xce8055cfa59a178fb02017554d8844114d0245683ac059ef529349228e41d155, 0x009bcf6bd3c4b6b0471071ef0272c229a0a00a3ec7066759cd77d1aff6204549),
  (0xa17eca6d4c7063eea81142fdc0a7a3c0d51d59df41645bbf2a2638a822305177, 0x042c31148bffa408ebed6308a67102bad6d28e5120ad24550bb887ed60d9dcec),
  (0x54dacf961e78b954ffcc6b75ba2d8f0c7a6a3d7c1483513efd099ac58aa68e30, 0x2d0b1e0f99dec62641b8b3f622a67a203a41194006ac98ecf645696fa4a9af89),
  (0xca132f7ddf93769c90188ec1a956702bc7162b3791907f3527c8919240be34e8, 0xcf9b75c37ff9a50ead74141822e3cc1167aaec690c62f14c3ece44f90e2025b4),
  (0xcc7cce5049c1ac80bc4f19db18762916bd99d61a9959d56d02fa2b164d348272, 0x27eb5875ba893f1107ec4ae16e1f4ca98775a9dca92028494d59ebaad846bd83),
  (0xf5528b5ea5669c47d9c7aaaaaa32a59482353a6b0db4138d00284d51662cc565, 0x3d6414ac6b871bd4fb423d5c202ddda0e3e8147a6affa3a1f32202312f23c5ff),
  (0x0188223a78811ca99a2e4bd176233eb8b712c67148ae5448586f82e1a51a168a, 0xf487211bec9cb34f3ed036b30e51e9297682e451b27bb286553c5e21f7c18de1),
  (0x29c135ff30da95216d1c9dd2514cdd280349fd04bef737a40d0942770c24efc8, 0x27f7525ce7df38c4081484184be21e65176f5dd2678c143cea6e4508f78b0b6f),
  (0x2a7c2c575ee73ea87846c7a615f75af29cba50a05efe44331fb70e09748ab1a4, 0x3e9d1cf13a4ec0927447be3d8b61d05745474c3bad90fc3d42e566a43f0a449a),
  (0x8fa729a7f03d57f77a4173f2ef29610a0b86e4319b1437c21603e453f380a6e6, 0x32ed3e34d68c2f7192a62a70153d4fb1be1d3079919195243e186f6e6c9c217e),
  (0x008a89af9a05f816466b34f0b9d6a191bc37eb77c5b22fe8d785027f9eb1a8b7, 0xb3154f51559d1a7c58907cc0a5a0ade37fe8c92f49b3f6b819b028fb7d42c10a),
  (0x1c5def0469c5874b1a915f3c223e042ea77a0cbca6aa793b5066efb6d9790ed6, 0x87052acb46e580630f7c7c760460f3b155cf85d2fcd8557a0e83007873b6c1da),
  (0xde8d5c0d0daa0dbba87941aedd45ac1c3cb068e04d721c8909212b80907eae66, 0xda212beb20bde0ef7307ba5ef0c24bfbc89442014d89a084da421fdce3502e6e),
  (0xcd7b05dcaadcefab35a024625ffad8de058d381607f71fe4ea2da24bf82ce682, 0x82699a5f1b0da4c0e2220ed0e06b2ce28be3d618b2d3b5cad442f8ed1d9f54ec),
  (0x5e5782cce95136754ebb120e22d7d3758f580f5a0d34180c3ff106f571c0c3a7, 0xaacf2240100c601453b48db87b415e70e8359fbf15ea8c4c2275580c99c82a70),
  (0x244e55ad476bcd52a4f4fb1f6261ec50bd6fdd2ad56157b29faaccf5e4652f1d, 0xad2dbc0f396e4964354e9a44278fb8ee1ca983d56181263f881c9305047d320b),
  (0x0b59f3e301af87ed794866aa6cf442520d1ca29ae6e0609a723f3aa29268b3de, 0xd7f8428206938ce1dafc73320a94d81fa8768fd261dc2f7ee234e5ff7f4a6c51),
  (0xa5978d09ae67d10cd5d7a2c9369ac4007fbadcb25d61abc6ae0b3c0e0546063e, 0xa7fb68e9ccfde30fae125225388384cde61e2ad1facac681290f211e4f85eaac),
  (0x948364d3514d5885b40c1ea5f6a6d90a80a9aa402606f7897a59b9363daed4c2, 0xc5f25bd290ea237e64a12175e329c2f5a6db5b0e33310895062ebc6070985182),
  (0x0c527f92cf182cf8369a9116c09e2c92eb5d26e46bb3cc527915c5242d0a4c23, 0x3c81836dc1905fe63c9d896299a34361b29222086cc349399e5919382aede0ac),
  (0x8a0369ab32fe9a0447884109724a1380e993f5bba0dc5dba4bfeb57fa001ec5a, 0x4551c2956af259cb47d402a204b6c7eabf5f37cf94655741ea068d608c927db8),
  (0xab04f7d84c295ef46201c22c34e780cabddf7bd0f309d5c7698b71e7ed77ee8b, 0xec088c88a580fd5b89738f80d0a7a97ae532e4ac92ca4cfe1c9472944313a8ce),
  (0x546b3d3aece054803cda78c001e7f8398f9840fdb25fdd2a612b1ecc42ce9e51, 0x28c7d484277e2a4caf8f94785bc7860845497107584c20c4271719a980d30916),
  (0x1ed2436103fa0e080ea108617af9c93adc506a3528e169a5fce0176788a2ffe4, 0x8218e8ea7c000fd4ce6aa58c64114db4c0f43b4def50bc7496eaaa92a3d694e7),
  (0x80f3271f085cac4a23d16655afbfecdfcd7e90cb1557abfbac815dfb185f8844, 0x7981d9e9ca9ae81659559ac4d28f101e88d519d1460a48e57fc39aa7d0e62f47),
  (0x2afff39ce7e597b5568fc472e21f541686eaf87f57657fe55c38652c9ac38203, 0x95df02e3a5064c8b35f8112a041caefe225986928285ab893adbbb07256d4eab),
  (0x0d1c4cc4cb9abd2dca27b2708709a7b7230a08f4db83c7de4d63356ec7004bf3, 0x8fed0da05802af7b75562e8492b5b7e7369cd4c79cf7247e8a0bc66e7550fee8),
  (0x844ed7363518152da24986631b82a0e226882c137b8a9d066a7091c2e48fb889, 0x56a413e90787d78b8b256ebc6119e34da04edaca04afefdc282f476fd86e27c7)]

/-- precomp.rs, "1G..64G << 133". -/
def row19 : List (Nat × Nat) := [
  (0x624f4d690b547e2de0b0c81e99bfc8a2e41781c4dea16ff582ee061d5a74be50, 0xf01059ad5ae18798482960c4a6c935392573dbb6409b1e8e3a83545dbdcc9ae4),
  (0x7c136735abaffbee55cb4858ecb66bcde8244437984e6ee1715c9f973112795f, 0x27e6782a1b21dfa89ba4c53ac6e0952f51c0782c388ad153546615955dbec38e),
  (0x5f9b21b00eb226d78e9dc84d9c7e93350eba59c87c3b2d83682f903d4ed2dbc2, 0x5846aa44f96306584f0bf67d6a8ec500aa86cc25be2e15aee33bd394af267bae),
  (0x223eed8fc20c8de8ec8d73d0c2fbc565627a2205a9e99704feb09740e2c2bf15, 0xa8dfbb971ef4c1ac49f7c3d290dbc85c1a0b6cb9c9c2b0a61ee32583a8363b49),
  (0xa3cdd7e9945ba5c4893f6d1b973c4ab51d4610e7e2c5ea84afb34d4c65c7c2ab, 0x3a82963532d6354a23b2c3415cf726c31459b23cad6bdf2b60514983064417ee),
  (0x1e7c88b3221a1a0ce2e2fcb7e2246ba6ec5fcbfe7030164f294f901fab192c18, 0xed9b52b263960f31547dd4f5a0f60f1441c2148e1106fb5972c7dd93c92d88c5),
  (0xf2d6dbe42de66b69cad5eccfeda462dbb154c5c29e7e2ed66c8349ebb0a5b358, 0x27ad0af3d791d87915cc43b38bcbb386488a85137b7f5723426aedf38665e5b2),
  (0x6c2a36090598e70cc48107750926b86d7f33527cdea50ca0c16c236e846e364f, 0x5b4ef350a6cbb0d615c3ce7d66831790e0fa07a49db4afcaa6755e52f024e924),
  (0xfeb356d899949755016aced51d983b4842563f02f6c7854f2c4aafc4b6205969, 0x7340185f0f51a926148cf91c447904da8f44340fe6934ae98c2a2c81d1a39bd7),
  (0x3c87111a9dede4e203e5022ca888e5d1057e78e680e289b22f8f00fb7409ab46, 0x4f201ffa1d3cfa088b944e28c7cc1dc9e751c85271c9abc75b9b0e1c7809460b),
  (0xa984b2735c69dd995dc2e5ca18810da4d52d70dad0b3674c02fc905c3e6721ce, 0x19d70b019813dc2f18b03593c2e3de092f1c9872c852dec463b9252784de5ca4),
  (0xb5583b9ec70bc04ba1feb333aaf49276d3030009f871e14442806b2da6dc1d29, 0x40d34174d58831286409f27205f61643fc84181189d012b51db0be7895695f20),
  (0x5758ee56b28d3ec484da18171c56700c6059e252863b7b08d79196f567419833, 0x58f5c1bf3a97763f7df4faf824305d80fddf524b54c5e9b97da2771d013b0ea6),
  (0xcd105f417b069889211cb9959ea42600d4cba22c4a2538dea5af37f17c696042, 0x365cd5700f26d131086fb008ee9db885472f2d895157b8cab1e1cf19ddb81e74),
  (0x961f2dfa188767c84425559c20f7a530dcbbf7c67ab9a6d6284b02bba2be7053, 0xf6bc1246f688ad777f592bc153567122104d6b63f0784120e2fd943570dc80c4),
  (0x11a05fe03ec955eebb254d3062e82b62a47a76a80d5f2b8205214c050f15dde9, 0xfd251438ccda47adc463e3719931769855ab13018f9e3df67eaff46e9d529b36),
  (0xd02e1794b22079486b5b64c7b187d08648ce626e16e589b5ca9c354723d695ea, 0x60941af1fc7c80ff5691fe72f34089b090ca6305dcf9c3cc8b58e98f7198111d),
  (0x8b5c989edddc560e36a8077f80159f06c0bb7244aa9cf09aa09bc0a222eb51e5, 0x37d1e115d6d4e4e1012ab84c07d20b4e02eac554ad08ff6219d2f316512e1f43),
  (0xcf15a10e4792b91663adf3e9685e03daf08d067edef8cd45b6443e1aab7b19a8, 0x09684eaab40d749d940688417850d605ebe131d59636b2fdf44bcce5b738a425),
  (0x6d8bd565b32d7ed75706aade3e9f8ba889f78b55ba4690158c3c669c72ba075b, 0x74afac0487cbe0a84e801968b025d8477f48200dc3bcc1b525f4e63b805f08d6),
  (0x065ecce6d75e25a44fec3cae2884d3feefb6bbf00223cdb843ed2c2b7e63d690, 0x3c29f8fec5dfdaf75009f23817b69d8f0d9a8e5f044b86666c2294ce69f79071),
  (0xcf37825bcfba4c78540df1191fdd1aec5b38563230c5ba219067528febae68c4, 0xb9c52ae976c24be0e8018980f889a1c740a1a99160c1b06677eff980beb11454),
  (0x7cd4fde219bb5c25884b71724f04c470ae000f108aa29ac705fbbcce45650ef4, 0x76cd563fd87d7776f23cc02e1116dfbaa88688595fbd06866477b22ae8840869),
  (0xda22c212c7155ada816822005066b0875f188ccbe6c170f5e2a37598a9d82abf, 0x9a1bfe433ecd8b664a73b54bf997cb2e4b606b846d715b99151e5d3afbddb479),
  (0x1d93563955ef47d3bec3312a0e43a34acd6a671e031fa9e21c3128092a67d48a, 0x3286662f722c7148b58300a65265b54c8247b364a035afb25ea024898fea73ea),
  (0xe4d969ca5ec10aa8f845bbf541d8c7e8f0a12fa70f3fe3fdb77fd76bb4ec4c20, 0xfd4b3453b00eab003c4261c520d81c8fdc7a3fac37f8a45a4c0053b743e232a3),
  (0x2267aa866407ceac538174deaf76f42e626c5277a143ff0276d48f86d36e3062, 0x988821cb20289a52a0a1c8c7418d8657ab861af7ba7330ebfad7635172e572d5),
  (0x5ce1680cd818b689f7382c9317c2354daadf3f8df1a6e02779732522cccc18ad, 0x7921dfeafe238ee8b55ce5b4c51ac38a4330689c1cae62ac359ebbfcd9ecbee9),
  (0x5da886ae7b444d6657b09f3f44a3e5e33e423bc7e8aabd183972bef8271d1ca5, 0x536e1f5cb321d79aaf0faa24dba515e9356a2fa3699cd0ff68206634a9964375),
  (0x9f35afeeb43f2c67ee227bf579fd1d94d549dcfed6f11513d3b9913a5c04e4ea, 0xb3eb6a04fc5f6bb25542de294ef48db062baf948cabcd822d2638d24f1314f53),
  (0xa8e24824f6f4690d30716844164be00b1a4d15b5f8363e2423c110ae1208e16a, 0xea06028e48be914770f418d09247aa97a1bef33142f191f4548773a290b170cf),
  (0x249577581148735185a49de5ca58aadfbe9b79f6ce274b18e13122f3dbfb894e, 0x3a1485e64c5db15e4474b4ced3fc253b1d6a974a26d13694111def61bb939099),
  (0x55d8bafd723eaa21032b80f817094381e34f553b7bc61301e79667b4147c15b4, 0x98b5d243d162db0a413cd4b2eb4c82515a9b292eebba289c5a987995f1c0e74e),
  (0x454ce985ed7bf00e11f349c7e906abcd08d68949baa862d1bb47bf6668342520, 0x211538eb715878875c24213dd273bf12b03468ea31e3c16dacab5c9eb55b803b),
  (0x932cd909bda4129186a632eb13a664fed5856cf274ed7b2a198e4a2f731dea2d, 0xf9e7c0c0cd6cd286e68cbec486076bcbc0f422f8347fc2c9850e95d4c0c4ddc0),
  (0xc665427afc9ebbfbff05481a66601023e85461fba80d59ff65994ddb0f5f27ca, 0xb22639d913a786af61becc60ea420688935289f88d49efceb0571a697587fd52),
  (0xebc9cdadd8149db5e4ae9b5d0a5c2b79001f23e0255064631a8e6220361ecf90, 0x97015cbfef45f7f65a91615b9b9cfbfd750eb00eae9b60f3b33164a1934aa728),
  (0xfc21aa54e96be1abd60c545b043fa42c21adcc41b07118f2b462c4a5bf5151df, 0xe405a74ae8ae617dbb73c7ebc38f1b5e3dae45f0259b5d8de84bc32f4e51ea80),
  (0xb5afe3de9f976033c448f3116875092b8c176b9849f196a4bb1ae9c69f1c56bd, 0x004e3fc1401f1b46f2dfc92d4c7ff57f687fc4d9e2b34226a8dafd49145813e5),
  (0x71f9addacdddc4cbf0947430418042ae0bdd41d32238e9975afddab61430c9ab, 0xb63accbcd9acdc78e6f1fe801b1011a6d9bdf44d29e2047f7090c016c52dd907),
  (0x5add2b069a685b3e3c0d3709e2d7eef70c667717a6276ac8cfc7e2351272a95b, 0xed2a2bf90d353466c9ea221375b4aac6f8e01f068d7dd506363ad32d14ea5d65),
  (0x1d3d1773eb3310c7cf3dacf51dc4ba758e0ee5a681b7f34b439d79b5e9d3a7c3, 0x67246f11f65357680521cceecd96140031f43160197d6b40a8e671127747ae83),
  (0x522cef7db218320ffd484e49c729b749247cc45d7e16693b702fcc5aef0c3133, 0xc4be69d51ddb32f733bd659515330ed0225fba119f181071e56ef40559ab93b3),
  (0x400ed3116cdd6d033851b26600f9bf47ac30903f71432dae264c76680448087c, 0x76f2e7335b2c516845c9f6410c1e673afdfd974afa6da98b045e79fef8fd2424),
  (0x950c547e04478922d87696701e0bfd24b286514cc57c2d491adaebb52a601753, 0x8f64a7dca4a6ee0c8f3679fee0e27f3a30bc1472750d6c3ed1d41969e5d32bfe),
  (0xc7ccc591b9085451cbdfdf1a661ea646ea82c395977f25472fe59937633dfb1f, 0x1e6e0a412671d36fbc17e84928ffbd70da57596f9196885c8217796281761e13),
  (0x766b4e4488a6b171d0799dd5a34dff09441c87b09e77e75461ae872c4152fcf5, 0x4df4368e56e4ff5ce5ca4d6de90c469eea02ae934be35c3edc06a51211f1c792),
  (0x32ad31f3f73bfe039666ebe66ce576109f5a2202a85b91e87817acab4baef62e, 0xc89cf1fe8c11b2d759811c89e1332156ea950593515056e6628330a425bcf4d6),
  (0xfbb30b4b608d36a0030e43fc2d26e562ce811e8d4625d37575b6391304e60cc0, 0x2e60a95e665e6c097f2830c099358f287c6fe085cd285911634ff82c48528118),
  (0x2b6d14616879be3cf228e0e652f61239530889aba759bce708407d3d9b785dbf, 0xf4f877f3cb596ac066d9317a98bc6da030ad99f076f24a64e6902c0451a7bbf7),
  (0x0cd2b7cec358b2a9c7c0d0598caed63b4555f536e9b77416b05ff62d4c44f119, 0x54d4598c18be79d7c54a7a619637bd08f8785b20d67c87913f33287b46945fa3),
  (0x7d3e738af2926035fac1a03d0b7a50509a515bb78b085877889e5acbc46d7ce1, 0xd9fd2c805ad5909061c4d451330163766f2e29558f7adc79861cc2ce2a6cb0eb),
  (0x6465c1fffdd99acb186fe3177cc19af1855b41a07c0d6622e5a83738b2b836a1, 0x094b44475f209c984d2ebc3f062be65875a7cf8ba2717cbe46e5c23f6974b99e),
  (0xfa8e6f76a0da9140c8c8776c030526fa6706d7927cc82f104af285edb940cb5a, 0xd7c08b46862a1fe21bdf98bbea6714575f46e3374027416677ea9d34591ee4f0),
  (0x5b82c3928c8273a71b8fbdb548f36bf7995434404c845e7b46cc303c1c08ad63, 0xcb0e720143c46b5cc74c2d24a8da054a071cf0f17933038008f712c4928435d5),
  (0x5e70062e82349cbee6f78b0c73f13a5f8552225ec5e48b3c0ad7337ac0b7eff3, 0xa068c99e2ccde707ee4f727c4ecaa20f392d2a29c33cb3d26b8d5048e7073969),
  (0x7a414143c5a732e7777d92df3b6cd3e4ea3e3c153cc252f0fcd5651fb87a2913, 0x910dc2a9a44c43e945bd5e64decfeefffe980c92bbd37cf6a895951aa71ff493),
  (0x3bd61a52f79961c33c37951ea9eee67c928bbdfb9303f6dbcb403f26cca9f54d, 0x1e19742c1e1b20d17d1e5c5ec18756316940ca2d61eb352d09a238e6395c9a79),
  (0x0baa11cf5dbcad5161069d9c84ed7da5a76e29a9089591494633d90823fc2e6e, 0x5a26322d00e0055857bc4f9f1ca2ee4493b75f1faf3d8c28d01eec64961849da),
  (0xa0971963c3439a43a9a26348e5563ec01d72aab4b9e5246e1888d65861a023ef, 0x608748d23f384f488fe97ef7fe38e60873fac1a1c45a524b567dd54badb9b5b7),
  (0x99ab9f3f9aa3f7d8148a8dd1310b0e25869254a38bf3a8d6b0571794c486094f, 0x53a5769009ef66576c3252606c71376c22b5e76c69790e6c0927c68a6706c02e),
  (0x5d38e9c41e0a569adb3aa8de12519b9eb4d2ed043c0a6f558d63f852edffcf3a, 0xbcbf197fbf02839f9d129c88ca6bf923a208e77cf5b5c18d871528bf303747e2),
  (0x19789f1f497e5f24b46b23120f6695203b055a8b339ca59d9b9bf03027323194, 0x3ee11ece8e0cd0488bd39595acf4c07972ee11908b69d59c9c499468aaf01801),
  (0x16e4617f27855ab75cab07d6e8bed74d225d906bd61fce43ebde86ec1ed66f18, 0x3516497c615f5699878f20e86dcf2fadedb5484f8aeddf5b6568aaddb2fbc3dd)]

/-- precomp.rs, "1G..64G << 140". -/
def row20 : List (Nat × Nat) := [
  (0x520f2beb24720021b2e9cf8e66eab95d9ea02f8130d69a98ef0a3fecfa181e69, 0x817a069babb2bef36e3c7b510ff5f6ff1203772171fa6d5d621c540a1df84361),
  (0xa0aecc1bd063f0da20e012f0095cbb216ce9bf75b9039f3483572fb6b294cda6, 0x056e37233f4f85f42732b8448ae336f8c7d59ecf48ce9cdc57c21c3af02909e5),
  (0x427d200e34189acc9e43c0d3b714ba3750fe0c17145208fd8a10b53189e800ca, 0x0807804fa027c9524d3222a58f342a739c25f4c8ee1854c105dee24fe616e2c0),
  (0x4c966787ab712a192c03f8b04a73434b961e4047ca28b805c222653a4f0d56f3, 0x2bb6d593dce45655a87d9f22c131c159c1be93da5b0ece5ccc196c42864fee42),
  (0xb3d36ee9a66dac69813b9420fea0bf368a41486be2c72c2c22c49ec9b809b7ce, 0xf9d81a284b78a4c47103c49dd810dbba0a3bcd2c3a3264616fddc08a328cc987),
  (0x9ee9ea42faee52686f414abb4ef18b9bdedafa5e303840873de865ade4d55941, 0x523fc56d1932178e51d7ebd29e9c3598eb19a514015f93b9260faa1637a55a4a),
  (0xf5384858fe6f27cba45761c892bc6b3fd60fbe9a124a1458501d070cb98fe684, 0xda7731d0e6fec4461eda5d9b05a482923d4606a95b5a8e5e4b0271f7b59e763b),
  (0x4bd1798372f1d637b5c3368289a90403e976404006166d8da3e3369390d45871, 0x7460fc76e3fc27e5ae6d7613b66a694e5ec4bcd8fdcf3b87a616679ed5d2c53a),
  (0x0cb1236b5a0ef8b26bdadc06076ed265de024ca5889501e370469b8295caabee, 0xd1359afdfe8e3d24a88b97cf744aff76f1dd387522aca4324065ddbf0972ebf9),
  (0x7802eabce31fd60c04a12dddde30b1c92c3832a8084db75d52a3ba2b91502cf3, 0x76aeb0c95f46530b3525c5b811e6f91a65d6f2abfaafa97333707327a37fddab),
  (0x0af61472e19e38736dcbb556358ae884a6ec968405f48679e8815ff62f93a675, 0x136a8a8765681b2a268da30c946cea90c65e57ea6f22fb7072334372a5f696be),
  (0x3b4b36c8879dc8b1d1649164c447d1b1f09a69602c46585aad5e81dc0f9f44d4, 0xba904b3b64bb495d0611b9b8ef80531d096a25051730d9d020d4177b3b6b234c),
  (0x299585460d87fc1390b1f9cb6ef072129f30a5dc9a5655451192d9d493a3147a, 0x28d658f14c2e868418a306d44f49ffbccb18548ccb1644a8d3323effc17db9ba),
  (0xae430a32f412c16166310f9c914b3f9967b7abdb4bf742ff44ba60cda99f8c71, 0x4cb8f38ca985b2c103c286aa8f07cd1b4bc0fa2452d7067d1e6776d388ace52f),
  (0x4a1c5642fa5cab6b460d7dda259bdcd1005a0bd25263e57583ccbe808c3bff36, 0xb137007d5c87b64ed8274fb4a12321ae09418e28cc97bbb52b7bdbb99fe4fc88),
  (0xc0693a17a6df4fcadc1291a1fd4c2b6b50541e89981fdb2580531fe1c63c4962, 0xb1ed4e56520f52a8aedc20aac6212c44245f19630a99b8d0b2c4604e0117f203),
  (0xb2a6cd6aa61d41da4b45d3a918c501000a7033cda9e45f98fe48f575f8547be3, 0x8273a4843601625a9ea3ab8d8cd626b6a7538ebd2b0d7ffc60bbb4f557933c6b),
  (0xa3995b196c9ebffc713ac792fab0a6718cbc9bb299a94abd888598450168e508, 0x5b59fe5ab3de12538bfc7dabdbf1796356892558bbb8dff4e711668e1239e152),
  (0xc0f551a0b6c08ef77ea003bcd9be2f37e5e8cf72d751efe47e3320eb34a9f7ae, 0x4e549e04651c5da807dfce7cc3cbd6861dd38e356d92d3b656606268038f6725),
  (0x0ddba4b3cb0b601c4bad8a8c8f159cc7c2fae6f4cac6d89d4058f93b08b19340, 0x79d9e0082802e9ce30707d06274a8c4c1d163cd7cea5c255da4fc7b51dd95f8c),
  (0x3846f5f1f83920bc3f6bae65a7327d5737064e74b50bed1a02a29ebfe6ddd505, 0x390c60303edd47c610a478ca4ed1743c4cfb28952d1da29f87c3749160df1b9b),
  (0x0762921cfc0eebd1d6c75c03a61b6582ccd02bda1e85df708f3e53128c0a78de, 0x2287c7f7e5826f3ffb4159bba3b5e78ad73aaacb0044cf1fd34d0823d85010c0),
  (0x49ea499659d62472e12622cda7dea144f080415d60423b794aeaf742580b1a01, 0xf90e3df607a065a247adc58530b79e8f0610f214f5b25a8ab42991ef571f3913),
  (0x9c69c29cac563656a8628c686b0c9f7f53fb5a34444024aa5d0a5deb43e2e034, 0x96812c52509e78aa05da1fac9463853ebdce02899ea5a2ec5a231febbace47b6),
  (0xda5a5511d979d8b8c050608732399be1eb2721f8d98e1c44d3fb577157151692, 0x91ef5215ed30f83a02ce7301f5941a03e20d30040dc7a7f4737ed55dc6f56780),
  (0x7c086209b030d87da7cf30a2ba6a4d8172d223c65c49e41a28727fc14092d85f, 0x0769b5baec31958fcc1281eee84c0495728cd4995874bbb004844c7dfc588b09),
  (0x482ded8bcdcb25a14594f494d36d7024f2d8a11b191eb110665c228bf99c2471, 0x4fc739d62f8d63510a45f6ef2a0af5507004477ef1d2b547c958a9d8dadd4885),
  (0x810188c115076fef855a71411c4e26708700bb2642c2737f75cdaf27786f08a9, 0xf9d4f07ac986bcedbd146de718ceed30ae4c8967f48108ebc251d0c9abcd3297),
  (0xba11de9ea47bc8c4e330513c903b11967780d33ebeabd1fb5ad98ed583fa1e08, 0xf28fa439ff36734c57a1b4740a9089d87ecf360da48de23b684334da02c2d064),
  (0x53edd0e937885d32988d0036b9694cd5ee65d68ba5ebcee9f2a482cbea4570b3, 0x2500888c47336da64396ccd551f2160fe9abb9079f5c6768e37e3307beb9bc6d),
  (0x0d700c7f73a56b3830f6f5968a4cb227809dd1c704da2930383f9ed9926fce43, 0x2574395a27a6a6341516100d9b63f57faab9b7351338df801825ea33ab64a065),
  (0x0d0301186ebe00a3da915d1f6cb4e1bae823fd73fd999681b5560fb6700a1acd, 0xb15737bff659b96a0ad8c5647931d76f970d01dbf9da0e0b744fb0c989fca8cd),
  (0x7860368e70fddddb2349e9a49f1f0136b2fdbdf97a26dec7dc9933e8a8b484e7, 0x3e12a5ebfe16cd8c7a544d91b24ff1b66d6c5f17689f4e79d93d2c1cf9ad3e18),
  (0x8c54b9cac9d47a8b689e37d23f560ef7a1ad550cfcf68ea2543574e9a56b872f, 0xdacf2602b8781718b589e31c1f9689e9ec450c7c1576c6d046d40a4a088ac342),
  (0xacba2eea7449e22d55d56c6db5f078251326fc93b96ef381a89237c6c8cb6b42, 0x07a18a6d60ae399b309e81dec36cf1becb6cd172d7cbcf7174e0887a633c3000),
  (0x9b329424efcc370ad884ae5d16a1f2c652b892f4df001d41b36c26799edce57e, 0x5c76a331601f56360b78af6ca05db32e55298d2d02470a993120daf2bd2e21df),
  (0x3d2c801b8792e4ce960e649f81b1321c70dc9240d68f8d49aae861fff8a4f29c, 0x01e8e630521db049a67fbc05263e5bc90bed93bc416c79b1f479f77242521876),
  (0x1f0e75ce786a13cbb10cff2d818c877ce609cb02e326754176f26738c6f3431e, 0x7b453192e527ab403c233737a9aa47555d777e896cb71ed0f4fdca641158544d),
  (0xaa448a1261ccd086cce3450cee292d1b8f4f4be06d82574edb59f68839f05ffe, 0xfaf5cebcec0b3a34a812421ef51042e74537f09b1908a5edabce91b3f7914967),
  (0xc11f2157c278aa51eb4735f9d75c8edb70fb72ed02efd342730ffd874ca6b39a, 0x3e9af3e23c2915a3c9d12823c420cb733a1ff0b46bd9601fc459f635bf3bfebf),
  (0x328d0a1dd01e5c60e1084b8a558795a3175239e5e3039a5fe0c82c72b41c3440, 0x954fa1074f425fe4f5155f059ed692d625d8ff1666c11a9f0a495f2ed3788a04),
  (0x54ee073452af56d2957f4782c154026a90cd8ba096b0f88ad16aabf2e98aaa99, 0x92e2542169169ad86808517e39b62e773d102f219a52816cbcf89e5445b4147a),
  (0xca2e45be51ee32470ba1081941f2763e60e4ebaef6d4ff9bd721d871bb608558, 0x1d5d73169f93983ce17f1e38dabe70dc528a8f2f74d0b12d66d172ec2bfd7a5f),
  (0x54396860a98998f02054ca93625bcab9cb417291aedb1a1051b2184adf423e31, 0xf88ae796aa3bfb8afbbdaadc6afaf6bc0ffeb590ee648e9d4e53f6c4a54ae57e),
  (0xe1abd8602cc80097f378da47fd51e569ac68dd03f3544ce2209f1d44d2359ed9, 0x4489697006e6cdfcd1f0c717533f3e67480797e8b40a1bae23ca18d9343b6e3a),
  (0xefc09d2cdb514b584c1b7b62e9037178b2caf78578460cdc8ca2105552a82e8d, 0x06b138668afb5141e09a81af8f83fc542fbda78fb3f9271c5f2df9ee9113be5c),
  (0x46d449d89d088ad8f2a8e9714c205ff772dd77a81ddf47d938f6480f43e3865d, 0xc18bef00998d4ac9e7f120a78cbc2031e47e02ebc7dd7f62926619ea185d706f),
  (0x82887ba0d99881a5c52cef8e5d703651efbc432f90dc82df18f37a9c6bdf22da, 0xedeaa2e09fd53535445bc3954ca88747d0d7e8c3ec3e8d3b7cec9ddab920ec1d),
  (0x6111a7613d14b112fabccb59d7903546d92a52e26d2383bd461b1d936cc87475, 0x649cab04ac4821fe6c078985540870305ea69b8d60e828ec0ae584feb3d5f612),
  (0xd0efb273ac20fa770e1227aa7038b9e2b5622f7286af736125ecedcf8bdce214, 0x740a52c5fc42af6eb4d5351f5038ec46856bf2861999503e817ff88b79df975b),
  (0x880784d6cde5e8fcca4fcbf1dd66bb74c3eb99fe17a834292e38bb152cbb1a3f, 0x141e50a80a61073e44bcf1af81ec30e18780510dbd15a72fddc84c1cb4e7a0be),
  (0x043afaf85252f332f57e7e87c607c3d368a61417f76a43720d95571847be87ae, 0x84001ae46f394a29b6ab74c8a03816a4b6dee692bb4d4ab4cc14e1211552a4d2),
  (0x53473caf3993fa04c9533ce04accdffc57326e7db79f55a55bed8344d795fb45, 0x256145088a5b3dbcd1ab3ae10ae4ccf8a73e51f697cbe46f7906eb93a13df4c8),
  (0xb0b9c41569180d29b31ba6b82bd7f3efdf71412b6bb7fa3961eff96211a71b27, 0xee3bcc6da4f7fd042b15e8c2d3e988f3702c624b227b4bbbeec14552014cdde5),
  (0x346ed5262d6fbb61d7cad2ab42de1e582db0cea61df9f2b79d00822a42ac6c85, 0x756629080eea396130ae04da7cf564902fa8a5807c25612eb39629951a2faf09),
  (0xc20c59842abb66fcb4fb381077961a63cb081d395241d4f63609f5c53d080847, 0xafbd9c695cd011af5eda24da99b3134f9cb127364e536b1e3d40aa7cf902f245),
  (0x2322f9d74fdc6eab1b09547fe7407a535ab657103207389f9a16e30ac7088c7d, 0xe3b5b635586f420417f1eff1918e586819382696e68ca9a9c0f2f22d7430de4d),
  (0x9a9ac3ecf3b224c29f35744e7482e41d359f2c805b5eed4e146ef9803fbc4341, 0x7cd6f4e2b467ed0389268b14c732f15a89ccc66bc613fa7c9161a6fe91fc50ae),
  (0x90f3ffc0b268fd42efe0c3a8edee2cd7f93e094cc02dde98fbf79869ce56b40e, 0xd3ffdeb109d9fc43401270563e310d5295ab7ad800b1afe881a7fd5608241aed),
  (0xe389cfbe69143c86829c7ca302b5dfd02e74d25831cf6db8c8f85c91d11a8594, 0xbea3c283ba037e79cc4ee16656cd17e24510399503bf825dd01b6405941768d8),
  (0x7301e47eb9d150d95615f8e28087648afbfe18aaaf8524044e1ac06ed9a47520, 0x7afffe03937210b510d674687d7c90e776697a7ba5b7831479f9f9ddb299b977),
  (0x9cfb5fa101db63574cea71320d2a5d6aefb0ecd809fd55ae5aef3e4b28c22cee, 0x51527a3795ed24778f6cdf705308c4db008fa9ad36cafb7d395e0b57f36e1ac5),
  (0x0db8eaa83ce83a80c5f6b7587c8696d36ed41b22909c90d7ba0dee305bd21311, 0x6bc226ca9454a527973587368c98dbd9fe58afe8522d1f0dd297fe37b24b4b6f),
  (0x462dbbba5756f1ada53e47b073ec12b0779d897d5e4606daa12b384ece53c2d0, 0x8035f7ff12e10c258ac1d5383cf607fd273d1ebfecce2e1769fe09f2cafe37b6)]

/-- precomp.rs, "1G..64G << 147". -/
def row21 : List (Nat × Nat) := [
  (0x29d1febf0417aa85405f2369d686666dc27df9efdcb9ea58854d34c77e6c5520, 0xdba7cecf9cb7680a24d008a2e31e65043e6a9669e2a27f9e9846819e93470afe),
  (0x48d94f6b9ed3a2c3b5d426de96bc88ca56f7dd734541d5ccecaff541338d6e43, 0xf3e19d88f94500d8ef99b0ff95225151d575465b0b1867f26354a3bb2ef8279c),
  (0xaf96f33eee6f8cfeedd8fdfa2c378882913ec99f627849a292a83268e32dd620, 0x13f9b5a7d9a12a5333e59f2989f037b0236bb531b0b03a1dc06737e5dc3fa8a5),
  (0x82aae2b91466e336d6459e2936158e59cb5b2eb4958df5be0d0df6ce51efb310, 0xf4837f97cb09311ff10c758a49f026b77152ecc5d4c0a933fb658a39411aa636),
  (0xb1162adde7733dbc846fd09ab0f8a3e618ca81b6f9c840feddfb02c4c753c45f, 0x442cd4524b66527205fc8719997cbc7af88cdaf5b2a563267070ad20236e3ab6),
  (0x883eca37da54386ffd20b00fa03b2cbb6ba418d29f7b605e7807f364b71698f5, 0xac1dd556be2fe6f74963a128329df765e910b432a48bb33cff0be43ff3437f24),
  (0xd4a222c359eeb9186ba84fafed0dac9938e17bf4e881c3f9557610f924a0a3fc, 0x638d8fd09e08af60effb754f1debb7791fc65e0de425d457c79c1dbe13f542b6),
  (0xd39d3ee1c2a1f08a005ed4b03d845ea27bc388335561bb44994f523a626332d5, 0xc4c3419fda2681f736ce424ff264f9a8620e35fffb7060176561fdd3e7676b0d),
  (0x573207be54085befc840b2ad0c83a14f3a50b9936d700d03fb6afd2f69beb6e8, 0x9c1b26b40df13c0a172d4bdd543056e2957678a43b40a7e15af882e309fe7e5b),
  (0x50e7c2be7aeee947e791a971636933fcebac86bd486e828b1c30861cf405ff06, 0x93a21f33105012aa17633a64397b056dae60eb7be670ab7bc3d4a095fa90d767),
  (0x381eea1d728f3bf1183ba8358b76167191df36d722e21599663c370babb88643, 0xa9aba1f9fbe009df0fd5f70a09b26b7f7c464a28e7295492b9b2f1ba39966e6c),
  (0xa7112386550faaf21ad74cab90b064663c00e5d932fca556857c1f22369b87ad, 0x13cd4c089dec2f31dc7df748ca7bd4b22dcc7e3859c3463f7435e1986d9bd5f5),
  (0x666ec8de350e966e9f5966abe4aa082b0dadb26ecbd2f7b00d3b5df8e3237710, 0x1b7d34d2159d1195658a8435d186d6bacd93c59b41dab0b61bfd1ed5ee524216),
  (0x414104120053ef15f7925434b98f474e6a45dd8f9a96fe4f5936e46022caf46b, 0xf1bcd328fef20dffb47d3970c4db0037b8547b61bd80bef471cf8d1241de97bf),
  (0x63e297ca93a72c6c3bb852e05f4fc8401f5919605531a1e131a92e0910caad67, 0xccd19846280896fcdc14a5307fef1d406ec405fced3db0d93c2b0b2e49abad67),
  (0x34a07f82b749fcb1d17d75f44ccabc62d69eb485653120d000f831769bb81648, 0x162b085edcf3c7b45722889fa19213a0b06ed4d062e283f82c3af787bbfb5554),
  (0x2ae1cac5b917f54acc2b6b0327bac297c6237fbce52f13a5bcaecb31e0dd3eca, 0x66f85dc4d94907cac3bd25411d7915bbfec7dd92ce5972e0474807d47845ae4f),
  (0x3c6ff6e581db134b128bbf247054e934d75f5da6df279e9fd981b888bdbcf0ca, 0xdf30b5ec095642bcc6712d4dced945aff370f7b85049ec37795b7cf4047d26e4),
  (0x5e32f8470135a613eb38636f87fedb735652c016ee90bbd19b034c624896246e, 0x569e56227250d6f8825e4f0c949c2415d05bb76e1a7f47e60703b312cf933c83),
  (0x8f6d12f846afa9849dbd7694b342734a8dbd203f22f243fcbbe9eb3a6568013e, 0x10b6a7c6d3e0a42a5779737b671c0d46bab4f32347dd0f18b98610a2c9eade29),
  (0xc4d506beae4e57d561fe493854c857e5d336343f99c45895fb19ddf33035b41c, 0x8895041e9fba2e33083f4ea6f11a28237281f08a9262c77d3cd8c8cbbbc33f75),
  (0xc13888ef43948c1bf07b3b87e2ba50f07678dcc391edba44fcdfea499c438edf, 0x0ce0637b6d73c120f24430cb88f6695f8e5104f3926ed1a7c2135ad41140af42),
  (0x000c81b68187a9f98daea3ba369ad44f1c5563d7d7bdd24bb2db01e6fe631e8f, 0x76d17634773aa504209527630498c622e35626c78d5aed8a5f48a951aae1fd9a),
  (0xa127ee79348e3aa2645cb26874d5244c9dcf7dfcedb5e80136d90ddaeb300f7a, 0xabe67d991493821657e59283292650d095037e8580e6161e488acc53575f1dbb),
  (0x2227b7d5d7ffc16908ee8fd56f530136ed908cb6330e89243c7f944b3f8e1065, 0x4381ae0c84f5a51a5c6cead1cb18e12c82225e11a62796e84f55c893b5cd6dd5),
  (0xbea9dd3cb4f4f0cd9347871f3e69264c3d9180820491aac0345913d37fafa4c8, 0xcb89ee5b86abbee7255893795da2486c0033c1b80573bcd8bda5d0673eadd3e7),
  (0x5ec256697a2b2dc7619b9d58226726dbb6410ff0727dfc4c8fe0a8f322532e5d, 0x75a7ea045664b3eb0e9470faf783487a852123d07acea556af4d2e064c3beb01),
  (0x64049e0afc295749c420b488b12904039214e6e5c7d0e0914ad78f356798e4ba, 0xf8dabf1910b6672246845c5ffa453458dbe4ca19b0b662a603ef5af13ae9841f),
  (0xb0c60f35fc0106ce3eb78f3e3b234fa971db851ec5ec47c1b650f0aacce2793b, 0x4ff069e2dc507ad17541b5c9cd08697625367fafce32386305427121774eadbd),
  (0x60e7363e98450836dbf307121b3a8a876e76142cb23c6bb5741452568776e667, 0x04548dca8ef43825a765eb9b69d4316fe4ee14ca4837dbdf5741450eb7366d80),
  (0x9b8dd3d32ba3e38edaad3c20ba6ac029733abb5156e9ac999c9f4e4c5ae888eb, 0x26c1ff096afaf0a64f52b06e161d3cb8f20127a79c5f88a3a9bb4c920bc5d11a),
  (0x427d09f8290a9ce515758e57db757a21c64387485ecf91e732670d2f7189e71f, 0x95cba111a7ce5e039e94100917845819aac3acb4b0732b99846a308f38384a7a),
  (0x9d7ba8afe5d9fed5b1a9ae431c97975db8396c278ff28b5f6f3d4f7fb00009c4, 0x4c3a6250628dd8c9a450da1205d471febc0ddacc64122516338cf09f34f485b6),
  (0xc630745b5e138235d6e1e1debdb41491a2893e503807eb2f69c7d103d1295837, 0x6d858645f079ff9e00ec0f87c328d6b58d17e7ebea2b2674c892109e48661ae1),
  (0x59be4d8e9d388a052c960ed09c29f25b1ce1393e4bac4fcf6cdf243e19115ead, 0x558519cc0b0b099ef7d3aacd936d4a3db923db5de03427480d46e06cd0def72b),
  (0x5c548b698e096a7c84c89abc6d2ed089259353dbd054f55d3ea8ebf8827097ef, 0xc8b57bb265adf6ca792ab31e451fd9f04d1531f6a5845601d587f616994b995d),
  (0xcc6b8fffef46797f2ab286aa8462beb8b9c860e66144da4f68440fcb1cd5ad73, 0xbd03e5902c73ab7ab9163f39bfb5da7769ae05a177ff7fafac820da420c8a471),
  (0x298231b2d42c5bc6d8309031bde3033d3c663d864b9af5647e862b5eb2940d9e, 0xf8b40825a2f26b460a88b5d6d31f0d00a4799d1cff85469542090d2c552ad093),
  (0x6f3764f74456ef15d2fe588f3395ea65d491c53b4b24c86eec29b1edf1bd7218, 0x948c7a51d18c5d7cefdb554074ab286bcdbcd456c1e33955db43116dcdc34800),
  (0x6439be919d972b29a10c73bcfb828ac741c746a104411154eb81aa377378058e, 0x0f7de5687f1eeccb4f7164086397bd4c39e6dadf82b5e8404bf3b4b043a2fbad),
  (0x5b539dc29ad7812e66368a88c0b32558f74211fa4ccb64515865c5a1d2ffbfc1, 0xca989ec9aee42b8a50b9650fdcc9e9835213207899934ece579483d02f3af6f6),
  (0x5c547b70beee83644ea2b3a098a0cb0a8f06a3094c2a7c0c6a44c829d6f62f99, 0x2916e52032dd9f6379e4aefde20d5d369e0fc77a7b41c0a8461d40e1682afe11),
  (0x0fc96822db2401a6c902a9df4ca19881396f96392b868d35f59e52e83f883faf, 0x2ba8446cfa24f44af8b6b579841f5d9010fc6de3fb476c0d4123758766f1c68d),
  (0xb2ac509783435391d6f4ab5acfb7e7b560bb60042330435fa237b920ef4a9975, 0xcd83ca999b38e6f059bff8c8ab838ae6ae779a6a74c56230f036ee2fb0d1ea67),
  (0xaecbc81c33d1ac9dbf3be6cc7adfbd3ee6356f6f001892a8bb27bef5e33deed3, 0xce29242e461acc1b01c50acb27346e5790a247a453f5f801e4feb909e6e861dc),
  (0x21d1645c1820dce57e3027d1e8c26722271ee9b1d4baf27b04dd214a2f998a91, 0x05bbdedb0fde9bd0f23ce47760187129f0061407fa0e8009086f242c7501779c),
  (0x0c3140569eed799db6fdd7ba4166ffa1f207fe855c658427682f483225d98473, 0x1e1c005b1277713474489f8f56a3c06e74ed3871412168400db8048f4107e28f),
  (0x9a793b25bd3893902291709cdb4d3257c65259bddd59eba0db332a73f37ec3c3, 0xea1d4307089972c39f37867a61208b272f76bdce9afb56c9f39fe34be43756f0),
  (0x6ad40c5a0fde9be7fafa941832ddfd955f5accda8441fb7d8c5953308bdf623a, 0xaee1c79122b8d1bb1662025272637a76c64a7cf12c248a9d43faba89aeca8709),
  (0x197b04cf34522326355f77801f0d8abe56e4ed4d8d005cb1f0f798fd21a843b2, 0x027ecdb28c92cf8927326f425d60bad45ef7feb2b40f933d41f9b31ffd42c13f),
  (0xb985b9314d13d4ec5ed6124eb7da7d6008414d2f73591b9004aae4d14e3352fe, 0x010ec86987ca29cfa57963c0df6c177d012dbed5bbdf51dfa592d3ab96bf36f9),
  (0xa6074b7ad938ae75dc18dc8f64da11f57c9fdbd1f4bf6bc2ba1700f6bf926dff, 0x8bb55bbf15c01016c1be8ab2b4f38e9a99998d38d27b954e14270066e84f44a4),
  (0x32f49e3734061719c01a716819c2e1ebd365a340f73d68ddf73472b40ea2ab30, 0x6004213c4bc0e638321d0bc8a4d8826a03c8423c26b47700b73c57f101d8b4d6),
  (0xf8f4ffcee0d36f5831cbdf91db42b2b316e0a16fef018e50f78c64a1c1c06681, 0x6aba0005c4bce3cbccdb6ba00fb2cbf1d55c7cfaa129e3e0cdcc71cd4cc5e3e0),
  (0xdc5d7ec72c97625702d2cf9c87e091499ddcf12ed58a3cef501cdb30d232cfc4, 0x6abfb9506d3d27e058c9822ab00ae9f688fdbaf7807f112a6447986e0b50d7dd),
  (0x82335df21fc7aaf2b826ba57e769b5df0649712bdb516609d0a744878a429f4f, 0x038956fb85011ccea77985ff21d9951b59ac367a68677be62389f0675c93d995),
  (0xeac7d8981048331917bbdd3bf9b1a0d9c08c0bf22be5b26f608e48cbbb734e37, 0x14303f21fb6f41d540373cbc8235c41afdd0e2bf172aafdbc95c4bafbc1a6dea),
  (0xba9157dcaa8b417b4667855a52abb6a2cad3b09aecd2d1edba0636210408f237, 0xe53cba336993c80ba1406a609ba643451b112c4baa38c4a2fe7f35074f013efb),
  (0x274ea0b50672a6249ebefe62403c3c313d5f1f4d54908e2545466063ded40d23, 0xa744ef4ffe3a21fda165df1373ce37f580e826438f79cf79ff818d99451d1b71),
  (0xcfe5e5585e0a317d671c28c78c442c36c616898e868c676b73f1e7f5cf551396, 0xdfa2cd6ece6edf4e262068bc0a44d0f656fad2a614f034421242d8187051f476),
  (0x42136d7154c51c19d399aa29c639b35f61214cb2377d44f50f43813ad15d1517, 0x9ec5c418fbc555bc80624c411150582d0a5546b352545a579774711b08417221),
  (0xd378c25a51ca7bd36aa5cd3e89116eb2b0c932c501d7bf6f2c87dcad771849f1, 0x9fbfe019b42827ce00451e4a22c6edb80417a54db68ad5d0c612a0da9e6e3e31),
  (0xde093760727546728f4fcc49983b35a621b8596e64ad69c12fa92505ba9384a2, 0x94f1d7d53e6ea6bab5b4e9c62df3ec3027566bff5d94263d2f14ccc8f7bffe6d),
  (0x7842e7e2ec2c2b693357e8c7150a61f6518aa52156713b9797b7851aaaca5e9b, 0x927090ff7b24732864da5c8b65917733d963bd82e068fc818dffaf656868a548)]

/-- precomp.rs, "1G..64G << 154". -/
def row22 : List (Nat × Nat) := [
  (0xdde8cdcfb48149c5ef1c78024564eadbe3b697ba56807cfd214bc9a7d298c241, 0xd88519e966864f8295cc9230de5b1fcc27154d7f6c1538af946bf0a75a4d2604),
  (0x72571fa14daeb3f36baf8d40e708d6b2a08d7626be46973ab828dd1a7cb1282c, 0xccc832f869f00755aaaafea85988207a87ab01a70087108d85b1732ff22dfd98),
  (0xcf839760ef3f019f4d9177b3b5d7585f8ad20f6ff0b34638964d950e36ff3bf0, 0xcf5687242a17dd23f91e1b2f332120ef2f8e4e9b13116bd1582fc5b38288c545),
  (0xe5d70b7571e095f45f3039f060c46124adf2c77dd987ded2488f1185ca8d9d1a, 0xf3a7564d21d013298cf3d0b175bac36439d75ea7f750d10582d586506260e70f),
  (0xab491d7b22ddc897b80c5eeca79fb2f74fde149ae2df565a182f04cd2f52d2a7, 0xe82aa265beb252c271207325d15363a0ca0d5f3d6aa41a5799d76c18c6312c7f),
  (0xfb43947753daac69dc36b150c03024eb6c76d8628e383f4994ab4700ec3128c2, 0x0522894295aa8bd3d66879bfccc5ee0d5b86995db440fbb2fc68764a8dc79623),
  (0xd6fdbec397fa7164066301820777459724327c760ea7d817b51a40a51e6a75c1, 0xcd87b28186fdfc32c6a50bdcfef64eebd6ac5273686ef26320c99dfb13c90f48),
  (0xa2f99d588a4c6a6fa5ef4dc9bd3d46eadd26c034b8088e9ab24aa43e3fcd3efc, 0xd28bb41fca623b94d90c4eee92d4057872c3f8ce1afacdd1ddabd3552f1da46c),
  (0x6c77a0a2c98bd0f9ce6931fbb49d1e649dd9ad7d3dc8755850fc0711745edc11, 0x09ae4885f9cb732f7203cce979639071cf065f91ccf72d2262b9a6296baf7cb1),
  (0x03b56be8e330495b08d381f17c80acec1c068aeddbea298f5e7c3becee8314f3, 0x6635be5217b444f050e32d351fc57d8c95ff38f6c4af8bf7aeffb8f29222882d),
  (0xa6fa0387691867bf5b475622c615796c4e1dbb47f685875204d15276a5177900, 0xaf312eb7e9fd68e6f6be5c402d3721d6c633cf9b03a2477ded7f5d562844c6d0),
  (0x77709b7b20882a581ff4dc6d5c67a41eff42bc71970ee7f5242792d2e7417ce1, 0xbb2930c94bba647758eee769591dd0592af2a8cd5bb721773554731dbe217f2c),
  (0x2519834b5ba104f6f4765bc8039af7e14c262ad1396fd1f4863ee0477d930cfc, 0xc49689492329512c778280a088a1f17ca5415da5d63bca547cd61b4cd105f961),
  (0xf8eb8757831dfc3b29c110d23484c1c4fc8c7e0e0b13247b174a9126cecdaa7a, 0x79f00ade83f80de409032da0ef42daf43f6f69ee7b9b926c022f0212c0067452),
  (0x2aae38b1b1a1553e4df7da7ba3e4137274f7685b3ee0781f6210db7181236c97, 0xb2818fa51e85956a478d21274b2edeaa576954485b8b64871688e222f6dd9d1b),
  (0x8cf60f96441838d60a404ded85342ffb01ca4604e25726581e6adddaf176f2c0, 0xa7fb754c8c456f7f97101c85809c0d81fd588744344428039bbc691cc9071c4a),
  (0xfa3165c1d7b808933e03d20b47eaf500ab4ccd39b299dca8c95f3c5cd51805e1, 0xa52c258f37840fd721a6972e0c9a4a7adc4972ba9019d11f005e8b54e160e552),
  (0x6ffedd91d1283794b398fd43248c6ba708e1a7d6a3c617c0f8559ff4c1e99d81, 0x09bf250d479d94ee42f6fc1838505989a9d141d53490530e8a6a59d2d629d208),
  (0x45d66a6d1ec2d989609efc7e75f7fa626c5926c093b8971c223ad3b1b3822790, 0xd9445c5f91aeba84f06c2ac1a32cb9e64a73caad3eb31d2b4422d663987d2792),
  (0x7981afbf870421ccf4cba30bd27370a0e68216e50bedc9466af7a1d5af71013f, 0xf569461203f8f8fb3073c936b1feca2286cfc4be0a47edae02496a679449f0e1),
  (0x596cf171a76a37c06361e360ab9e50594c6c77a5749cf038d063b723901515ea, 0xa269e8683f9c40ba5cc29c24efdb81c90f5e631e0792a7a6800f53fa6530ae7a),
  (0x84cc22b3bf80ce253c65aa9b46332bb978ea1bd8e5b08ea6ec14f9e12cb7191e, 0x839a02689f8f64b83c9d07c5aef6e357cd4ec1c619087da40098e9e9d49d5bf1),
  (0x921474bfe402417d70464669bbb48317759689f56aa995e4c5e9eb62c6d8607f, 0x4f774535b864514bec74109653311fe8d51e52d2812fa4b5cabe135b2a354c8c),
  (0xd1287ee2845aaff85d45299ec709ee8ac97038732189bc7dbcadd6715bde48f8, 0xd5fdcbce60d543ae60ba649a84368313ea46588b990c88d67d1f8874db1dbf1f),
  (0x00a6116268e67c40021c1a580d337c336739d8f904d7e5cc90b46d43810d5ab0, 0xf5c003292cb8491367578b852f5f199cfe126605e9e2ab9595ef413b379f0a1f),
  (0x589fa0869c04339e9c1bea26cdbdc13283b82af429c5fe88f795643037577dd8, 0xf32bd122ddb66334df17f73fbd9ddcca85fa8b21d295d034033e9538b13799df),
  (0xc774df727785ddb255fd9cc340d855591f0d69c25aa9e39755ef88a7858b044c, 0x7d42a35c82a9c1bd5ed7f5bbd3ed09c4eb30da20a85dfed05dcce9f6d3bd2e1c),
  (0xb8561ea9fefacdc85e13479fe28227b875f3432a3e713a10cf3de9959890272d, 0x7a16eb55bd64bda8d2fa1cfd0c63036f9b0d8bb573809b62a6a297a08332aafd),
  (0x95c595018354e0755e361b6b5e437bbe2267c45407fd752b3f5cf5f678e62ddc, 0xab67703e2af9f312ed8554f5cf425fb5844b617d2cb52b4eec725f85f2b254d9),
  (0x4df6ef64db38929dd1e9d0d05b7d4f84b09daa259c8a705e4cc34ec13cf48283, 0x94d671bdc339397a0ff5b602d520aabfc6b1d178a293f8fbe16b0763aa21ba46),
  (0xc8511a627a45274d9b19a631a7c5a6d47c5e0d67112152617c7d98cf4f5792fa, 0x83bd08cee7867f3cab1e6ca2f7ddee08f7fbab88cf5e48cb0c16621ca5a60d99),
  (0x49badc32536438f0edbf84eb981f0a624494f6df4eb1a9f5f7e48e8a2ac13e27, 0xb3d01cf230686e28253d73a1b727bc31bac67d10df1c94ee50bea541004f7571),
  (0xadc88b33a8e1635f202b1fb7670e72b7a099d183feec317351b77b1b55fd0b8b, 0x15f1462a8f296f4011f81c926fe55a93c2e68d2029b58d0134e8216af989d905),
  (0xe0bd29c8535077a57559710ae47b26f6a17765a301c8977d1915d375ea3d62f2, 0xfbb9f1ec91ac4574bbc7503ca734fa56370dfe8569ced5c1615f976d08d84858),
  (0x1e324aa41f4aea3d54511af3e2a08235eef2dacd6e65797995d7ec53060dd7ef, 0x0d402c7e2b32eb5df880d316223cc62abccd5190bf52faf7550e7e71e6e67671),
  (0x6480be26c7388638a1e8d39a0253cdd44e0a41fd96783a1ba40bc039306a5a3b, 0x1a8f43e1a487d29a34ef1a481f0f4d82188d8d8fec0b5c36ee365e1d2285f382),
  (0x475ffd7dd14c04678e04359ae9594df1f69a751e1e72c2538168226d77aefb3a, 0x1dd2e229238433111ecd2a9ff1063d0085caf647dd12ef94b5a2c2b13844e95c),
  (0x00db2ffa6a8599eaae4459f5dc20e21c3ede77468fc653f138f0e09d73d17244, 0x779a440a016c441abdf063c5568bfe954934d074a5c112a611682c3930cfd905),
  (0xfb28c70d26f74e8dcee37f72d712e8dbd3a5cd87e0776aac0c23f21897d6fbdc, 0xc51b308803b02de97ff4cb00768ffedca6282168d3724354ffe0c728b61301a0),
  (0x933f48d48700611b5ac2efcfc257457e35d2f706fe6973b4a5a8147c3902dda5, 0x632c6af3b2091074c646ba7c0c32f34b7f5a4de6162edf94c365af884912beb2),
  (0x7f4a94d8710c8b60b24bf729afede6a670e1d21724d4e23f58d4f2e3753e43a9, 0x0b64615e8bd2b43152fcd37b78b6dbfdd9ed0b32b066b690aad90a968d4faa6a),
  (0x3e553fc306d38f5e2d6681c890dad7bcbeaa386d240b76bd228e2048cfb9fad5, 0x547831ebbddd6828190795af5247c39b3e85c52ad28c5b0ef27cdb9b9d5f9750),
  (0xf101b9aa2316fefee478391943c7392c36919c787e47f89df327a2274a82f424, 0xde6b4527d2f2cb3df5b5e231a3ce77c7fb55ea139cd18345bcdc9e9c1c5009d2),
  (0x65e18cc0a7cb4ea8c3697a0894197e541e85db8e044d85b610f6a3339bb26f5f, 0xa8da3ee51deccb3d53c4a6bac007318bf031747a2f13439ca38c4f50a471fe6e),
  (0x70398ec8e0fac1269b669f4dfe8eed3c90c7810c2f79e6c20555b31c558216b1, 0x0d37bb5216a18c64285fc368d0cb74310ceecdb3eb94f395a96a449ef701b235),
  (0x47f5e17c183816b97da34a67f36235f5a60f177b65930d5705110d38b880d2dd, 0xc42647eef73a84b746d2ca0e2f27b47239ba215d7036f789c7664b57db394af4),
  (0x649c0c515db46ced721a01d553e4df63aa922708f4cf85d544bc754564488f1d, 0x16ae33726afdc55475044558bcc194a0e3bf93fe50f71d966bf0d64e3cffcb6c),
  (0xbbda54e8fa1b89c0cee54da1c1099e4a64352f06e22a9b84bfc01adf5ca48f3f, 0xe34c24378611d4a0936afd88dfb7b5ff1ca44a2420176f88166a3df56f6e55fb),
  (0x36b3a6108c6aace97c2a468f10c1b1226704ba1b1f34fc4d7effbb7586142103, 0x89ee25baa8376351ce905ef429fe09be066f91973ce33e32abfcc0a775a0d050),
  (0x63422f08a7951fc80cadcf68284b41267fd32ed936f172602a3ede22fd29dc76, 0xeb3613ffe4541d0dc2f51b100db2b1b4fe9ce5d122ad4490562b24f40807e199),
  (0xe3eea56f243d0beca9f8a40ea7205558527aa55d561b08d6bd2c4a052680813b, 0xa3afeb82546723ed0b76bbb9a869b5d6b67d3f651a69e6277b853817a0ff58b3),
  (0x09432bf6eec367b199c56aee9032a2a08413b53d430e2a455f24416d3e554892, 0x1b84f7976f298597dfb66ba65481130749ebce555bc92048552850c6daf0ecc1),
  (0xcb1771c1f6247577a40f9c59ba9e5d35d9fabe033a6fa556795904818d1d7a0d, 0xd46124a99c623094fdf94de00d794716a34b3560552dd8c5542a47cae9a6312b),
  (0xdbc3dd467479490f12b77e147318689827f205406c0d8ea156b7435d68afe8b4, 0x77e4665d47254d56a573b3462b202e0a8b1b3bb37921bc96951a9842c03b0c05),
  (0x5ac71689ab0ef4f2aa3e07f857114ba7ab86e8bcebd1423608b70dfcd23e3984, 0x13931577a5626c7af122f72a65d74f4a72733f8876644af088fca3840139d9af),
  (0xd1f568c4173edbaa31e88b860c1c0b32375adde7d7bbb228d5b5d9eb70f8d5a4, 0xe3224c6f0fe8fc48b0a6fdb81b473b0a2beac0fb0fcd9a7e1592fc835459df02),
  (0x72d191d2d3816d77e9ab98c04d42d1b230385f0220e77cf5680bd00ee87edf5b, 0x5564f3b9be6ac98ea209aa8d7fbb3896394eab591f8fed7f1564daca0917d9e5),
  (0x83da350046e6d32a61e017086d4973a068d1a9c413d78d74ead21d05d73654ef, 0x98af07c3944ba4360b2ff9c7ebab8302a1b9a4c9d02da0696a3dfca468ae0118),
  (0xfdd2d01d33c3b8cd47e4495abd625a2b467fade071b58bc685997326995f0f9f, 0x15ee2fa7565e8cc997bf738e2161f58348622329348f79992c38ae28c693f9fa),
  (0x152e2214e9d91da88ad95c56da762bd5cc10bee0456f2829a1a5c8455777e189, 0xab6dff73faded2aeb5b5b8ad225ffc53fd5d7670a90c66df975b0e727cb23c74),
  (0x91564805c3db9c7041c246fe81a881fa0ed8b2496a574bd7ebd567816f4cbe9d, 0x3b69dcba189a425f7693747caf09e92a1facd1f155858d7bd7c12b085b862809),
  (0xa2cf1f89cd05b2b793b8ac6ad583352f57300eb2e801f5c90be28e9f967365ef, 0x325c377f69f069c6b49a4dec1099cc4dfee38c45ada523fb7c0c9b744dcc40cc),
  (0x0377f264a619e6dad561c8b79072289b580e0b6cc6d4cb63e12458ce476cc9ff, 0xc8e50f2fbe972f798a9536d2c1df4533a453a7bd7523ca2b2668536288e591a5),
  (0x810ee252af7c9860695bfdacce11fcb46f33696ffacd665ed433e50f6d3549cf, 0xd485717a927317452b057e74d69fea72f7dfbebe758b357b65450fe17159bb2c)]

/-- precomp.rs, "1G..64G << 161". -/
def row23 : List (Nat × Nat) := [
  (0xe5fd5fa11fd394ea1adbb7b744104213daf04dfd4113c22d896c42e8ee36860c, 0xe4e879de5a56ba98276071e3099845236772cfbe18d1015168235d941a4e0551),
  (0x6e349a4ac37a233fff1d4f5d2ad9caab01a0be881e4c705eaaafafb0285b9491, 0x36974d04ff8cc89bea3d43665f6d5471d99e6b6629383260cf1c12464a1c6a16),
  (0xfb8f722856a4f3eeca6c013adad066d2b42c026dda9c8371c26c49a1cfe89d80, 0x39ff21f6e1f24f25cb5fe596ac19853434c1a74cd631e1b308b579ecd850935b),
  (0x9d9cce82ded092a5256cd18358e9c5ce7a64ae06c0c853df27f29e148f929057, 0xbf181a753785e644b70b3083aa9e29a0e1e4709231bb9e27cc6e59796e93b7c7),
  (0x9b670a37bbe0bfc869cc20e0cd1b66bc1335e1d59780d14df53f2c658ead09f7, 0xbab38fca13dc22483604e0d2b88e9a630c74e77c8326a6e5ce53dc8128efbeed),
  (0xeba8e477cbceba46fdfb62bb9ee3b78dbcad24927c87c37f8ed6e8c85c0a3f1e, 0x8b123f35f71f9609b2944c046b6147fb0bc498e87976deb637d38cb0eeaede4b),
  (0x15c8295bb204c848bac215950d1850dff1168a32558f69cda155dcc7de79dc24, 0xe3a26e3b6beab5e611cd5143bde4a59ec396228e30447bdbf661aa367d8184ff),
  (0xc26fc9c40adaf57e4b301ec4578c3e6e573441c32c7bc863d3b3a13f1402b9d0, 0x53ef07f60725b276daca2a8a6a8c608fd05d4b3f1af8145696e71bfd7493cea3),
  (0xa613ddd3b6aa78755bf69fd5e0c48349346752181328907707a5fbd27824fc56, 0x016c4168b2ce44b99f1d192890fce23946f4409c8f84a4817f78c19c5450d866),
  (0x735d95c184823e609c241645e3fa6fafb152c88820e30e19bae023f0c7435978, 0x32c5cc53aaf57508076bf559702746000b4b02a9f03b49950319757303955317),
  (0x76f267f2ce19677a3814b0485f082d72b7bc5d649a5e2b5ee8af6d1f60624129, 0x0d792d60aa6c55f178837949ce2736a055230cd73bf56803626c630fb36eed93),
  (0xf25b5887a1c948423569bddc7b8de38ab38f8da7072b342d0318dbfdd5c7c5d2, 0x899f94c057189837aa5159dc2c6a4509854f29ade9d1707eb2d5b2842946ad60),
  (0xcd22a113c60214424cc4301204827b51261762de35e3b2d5cf6adc51f4a55b03, 0xc26455ed187dedcf6c835a1163a716d459a50973d152becace2fd61a247c9569),
  (0xecd3142b1ab73bd3308909abd83c2aa118908539cc890cb527f536e049ce89e7, 0xeaf34eb0b7c41186ad8dc5386da4541f3c320a68f2bea4c66a85bf59b3f5ab84),
  (0xfd8eec2a461cd415a24d0524c822c4785ff9beebc57eb9fa1c780129977c97c4, 0x35c75015b21ad0c963f874d94866d6f4b4ff53191d1be115fbde194ef027458c),
  (0x0f63cfc82fe1e90724d000fc68225a3842c77c0b83137aa9a6b5c9d646ac49d2, 0x94dcfda1190158df9b33fa5f787fb1ba7d38f719ec8e448f22d1b01bc6441f95),
  (0xf4512fac9f668f693d100f5df51b930a6b4f355cee52b826c47cb3395f6d4a09, 0xf1dbaca4520850a8494a54c2ca085c2dd021d4d4cb4d2e48546781d5206c4c74),
  (0x3f58297048d97846bb772591a2979258cb64dd9c41526b0263c79326490a1aca, 0x0d54e389bf0126f36b911831c10338c1c28febb5e8a0ced4d66b70d17c213ba7),
  (0x469bcfe1d53ec11cd4375ae1ac64802e786c88f677e97cb97048d4604af206ee, 0x29a4ef2359edf188fe00b4aa59ef45ace743bb57c5b4a3acfc9b340d47062230),
  (0xc9fcce8298864be2f30037c80ca6db722575d3f6513ac26240242efeb483689b, 0x4525a7340b024a2f1fa4b1a8945cf86c95e575821c4ae97184a112ff0149362d),
  (0x9caab338736d9a2167e8e90a298b1aec483ff59328edf32be76c8b628f338360, 0x08c750496fa8f6c193f5fb1ae24a43942496b4dcb55a1d415c09d2fd66892709),
  (0x7389359ca4b5593124c9a65cf07cdd94e9d7f7900733ae57caead1c2c905d85f, 0x07303b35baac803382444bffc7b728181f203067cb7e7adcf58709b7367e45f7),
  (0xa1655412bdd10894a5f2c6107e70ef70e6489b24e0e741801e1ee4e4d13b7ea1, 0x15fb3cd2567f5c15735b9b5789895856533c1c3c8e89bd9c555ebefb7af4194e),
  (0x214e77a0bd35aa319332efc4ff2bfd8de8a4f10c8128240a057fed45526f09fd, 0xcb6cda7854741795c9adf8f117a1813e767867ec01e5f18632896d7314faa40e),
  (0x083667c4a3635024c6f1e5c932a096dff56b5a9ee3c7b8e9b7521b6d349d51aa, 0xd75a324b142c9259c8a0e48473aec989f1b8eaacd136e45d365ea13518087f2f),
  (0xdcc4569ee98ef49ef54339affbd8cb0b45434e0b9b7a94bcb7b4d00101dae185, 0x3e50258facd7baf7f64aa418fae8579281b4d206b2b025d87789318a09a51299),
  (0x31a7ec6bc94b9d39b28b2bb6534c6a5aa2e670891f485fa4dce84cdb2996864b, 0x4d24ee7c2128c29b68726328737010634acdb5ec867611901d217766d6bc20da),
  (0x00ef95acc4c6c4abb4e1d7541a64d852612e481cdb8ddd3bc072ebd3a19fd868, 0x9ff9d98dfd25d6f254af25e8343fda1061294086437747901536d2edaa0a6c46),
  (0xaa9868336458c37aa5096b80c2cf4a81977a31cb730ecea70746af7c468b8835, 0x04b601597d6e684850e6c304b7133b5e6a62fe9b33c5d8546af29bf3a6bd9d34),
  (0x95f9ee8a89412cf904c4c5fde3bcc5b110e35ac85ceedaf14cd296df5579bea4, 0xd8c937220368d476774a84aed327fcfe2e84576595c2aadd2c9459ee82b6eb0f),
  (0x07afbfe9b7f9bcc2535996a0ae496e9ba579aa968d2495f30dbd5748f83e8a3b, 0x18e78e9f4b197acbba0deb989c0a3e763b592cff7022323d3ac1dc6d5b7bd293),
  (0xf0cd9c319cb7560bb617d270a57836da7ee8967282c4da77211cde10296c36ef, 0x8adab3ad0b384fd0781e2ea44e7de4ec3fb53cbb7e7334f301fdcbf7e455fe90),
  (0x3d359f6f97ba2c2de4f9adb9e4cb4a2c7a471e17a261492b129eee2f53d64829, 0x56782372398ddf31c79fa117d85df44e92b444c375c2f8a8346c67860aacd697),
  (0x518c74a17cf3136bc72046ab9c92e4d24851f8ae8b04816b60e690f2bbbab3b8, 0xa3ccc547542016e48218f8c4ac5eb2b614578d90a919cabbff4eb50af9877d4c),
  (0x571678762f063055dc2bafdf500f1085f3e97346f43cb641025bf48e327f8349, 0xb11b5e5bba519727ee6bf835182b165d7c078d48a1123de55bd914b9411925a6),
  (0xfabc1294889175a3f101d334afe115bb2352b46192d4f85ee33ea76c1eea7b85, 0x1c5e12def98fbd74bdb47b758069b659e0a802dbe77fec557f6bcdc05233f925),
  (0x6b70d54822b7fb36e576c09ff460b38fa5360f694f7ea9f7869c58c64b8457ee, 0x46f388f2ba38ad2d97df25f525b516f933797852cbdff3693fd237f13bfae315),
  (0xc34f30cfe4a2edb24320fd5cde1212b08830b26e70f38ee8656c465889d8ddbb, 0x19e76d09738bd76e66856a37bf981d947f77f0ccd99c5d26abb131a356ab64b8),
  (0x8ecd83bc4bfb4865b7b8eaff0b4eb499c0a482bea830b366e76c8ac396238f39, 0x8b32d508cd031bd2b9617df5be1fa446b42176a4f4b88adf971b2cb7a2f3776f),
  (0xe971287871b5abf27303ffdedd92d964c424f46c6a2279231c6bd47d53b618c0, 0xd0d841a067360cc3222a14277525684f85f48ff5d3c055d18f48a632f815561d),
  (0xa42ad5223d5f9017aa844c8e4d0d9e24c78913f1cf07f8634245a9260b9267c6, 0x5136fd8d13aee529493b383e0a1ea6da928292dfe1f5e78ebd371749a2c989d5),
  (0x65f436822a53ec08abf6aaa0faaf37be3b00aca4bf5855ac860c44b1f2c34a99, 0x30473f5f305023ea0de1067e9a41e0d578a7ab2ce20ed4751d9a5801a11b12e1),
  (0xdc13966a47f364de5cd7440b65a448035cd5baa4cfaef9cddd3ae09d169c7d97, 0xf310fa4dca35a9ef7a4ceb3205ff363e0cb1b4c5e9d57c2a077b2be82b8357c1),
  (0xffb357b0eee01815ea2e48213c1f96d90c773b500b02cf58dbb7b352f97f68c6, 0xcae575c31928aaff1faaaea45e46db6c0b36c95a46a3fbe4b9c924cde0f28039),
  (0x573da0b9f8c1b583cbef9acfbee0cb92fcbd12a971c58cfc7f671302a70dab86, 0x522cb8d18065f44e0fc39fcb545ae248e7eec0e32155cffe4752fcfe0d41d550),
  (0xb9a38d49fef6d507f120db283c2ae58de034362abcd124a9263c962a70cbb96c, 0x2aebcb834f7e1c3d4e17a5d4cb251949bd162f3020aee7e0b1fd2a821ff140fd),
  (0x1f921c71e091b536eba699c4b8a53a29f42e1e47eb7d9997608eb25f937b0527, 0x16ea821718158ddae5ef8043ba1f1c7e7a8ef5ed3b61a680cce29e7b5b26bbd5),
  (0x4f7199dbf7667f125bfa44dfda694ff368a923d78104fc6b01778a2b599ff0f9, 0xc4f710bcb42aec3e02519a59abb4ce7c08b5deade9f8131dc06d8ff6e46f2a79),
  (0xc64519de03c7c154048b3f6788c657416474bf80b4186b5a3d77b05778bde41a, 0x902581397580bfef8b9f8a02ca909f77319aa73748f1aa6bdf0738460edfcc4f),
  (0x6de5048b14937f8f7a744ab5d9a1a69cc60209e4c9ca151ed8bfd3cac0c22719, 0xc130388e2a2cf094a6aeb6637f8e94e77df709401c6b16d2171938d8e115ac04),
  (0x039aaf90e63a830bff7ff0c06c9146d69f258a7265d60fe51850be8477f54e6e, 0x00931ba5ecaeb5941bb5467b9681a97e4703148c3f795f8a38f27a739460342f),
  (0x004525097c0af2230f4a3f20555c2fefd9c01cd2e704397dcdb6719d786f337c, 0x5064105378cdaa4011ca957cf79194223bacf1aa93c8aa0654a5804784db8e76),
  (0xa7bde5829e72dba85e14814958ddd3ef170c963f43d4acfd7a3038749f7144ae, 0x87882daaa7b349cdfcaadf9d2619ad31fa64e532572e02490769da8b6fa68750),
  (0x19c5714d57b1ae7eb433750ce1b806b2cb10471aefc5d0b19f6eb7316c67a775, 0x8bc82ce3d0b6fd93a66c52a78c6320b5dd03344f31bc194ec0dc8b7bed03fd3f),
  (0xb81d8379bbeddeb5d3adf27e4daeb85ce53156dd25a43e42f8e13501b35f1341, 0x4c596b315c91f1cf37d911618210cb9d9020eb94eba5dd601b0b546e2e435867),
  (0x248288178e36f5572aac79e600fa6122baf02d8245ff897fb228a90f0e0b040d, 0x71f8620353f131b82aa1d412e0d417159e48861e15eff1f8b9521d31113ec356),
  (0xb560b0e8f59db51c394531f7a8c51c904aa716dc278d9d99f60da8da3fd19408, 0x615ca193e28c9b565cf530f723a9d0d3f024fa149cd4f8bda28fc992fa34bdad),
  (0x3d3a74cfeade299e50663c411eb917ffa4cb2412ea0dc2dd6d2a483d6f73c51e, 0x48027c1443f2f92966a3ccdca5df9208a9bccf59a7b15c3d29b3990f4a7a9202),
  (0x879738d8632103291b18ed6be2183a27e001c366cd684660d385377c40b557f0, 0x6943d1b42c8ce9f8af6f1112863b3724d1bbcc48a684b299a687c74bbda94882),
  (0xcbf3dd50fcddbed7542b56753a31b84d27ed231060d48cafe044a3bb098cafb4, 0xb24c755708c52120ac1c8fe0b5ae75dba7ec851dcb0c1e2725031f1641b1d830),
  (0x840f8ac35b7d80d41f6bc6d99c81adb3f8436526681a993957f811dc1d4636c3, 0xf123d8f05fcea120a5ca4a07dfe688677c501cd3b5156880731a9811f4387f1a),
  (0xb796ff08180ab19b32d2f01d533240912b70e215cd3a45461fbb0e71d607039e, 0x338e8cdf5c3e20a39fb35eac31630d982aed9cafb7c49a2732d87a863c57c4aa),
  (0xf52139073b7b5dc1d7b8f13b9b6e50724e1599802d72fd3680f1618266cde8db, 0xaa1c0c54e63aab66bf375696d01aaf6b37a1a680a7ed21424d431f1d8ce4396e),
  (0xfe3d7a81a23597f67c208c49ca97579f67e6d0567a6fcedd3014368b4ed80940, 0x79422f1d6097be8326da26f32fdcdffcb1f3e1e724b393665e2032027e096ae2)]

/-- precomp.rs, "1G..64G << 168". -/
def row24 : List (Nat × Nat) := [
  (0x8b1adfbc42449325728d06e97d04e61f9c3a2deed4df0a4b263a2cfb9db3b381, 0xdd2ae778f530f17480ba1e14810ac7abee2be5c766daf7076ec1d9397e053a1b),
  (0x070ef12dec9fd9ead5e88a8bb6f8210e6eb8f064056756d40435d97a205b9d8b, 0xec1f205114bfa5add22b49e1b8a1db5e12a75338a7404ce34d8495053bcc876a),
  (0x4b625175887edfc9eda01e0d1e844b0c9d7a025801bd5b9eadbaeb79b6828f36, 0x0cea06f4ffa473f9fe2eb788170df6bc88a2ca56f6f87b9814109fdd9669b621),
  (0xc6927bdbac6a7394164a620f9deb4d0fd9f358795efd488b43ed81b5c4e83d33, 0x6bd4c284398538e07cf4e8d0ffa348f12868661efcd7e1a945c28df79f9e0f03),
  (0xa38062d41e66f8fb664e46e59090c632ef796e606671b1732618a091289a8619, 0xbe2d93f1eb0a05a7391223b26bdc0e20d07b67e4a92713946c744a200573274e),
  (0x1e16a8fa76431c3bb804a48d6b7c023ae84bb3d44dfca442f23e2e533f36d141, 0x351ac53cbf391b3550fc6f1dffa275997d405ee70d1ee1271b5452adddd472e0),
  (0x8c45b2602b48989befdcd0e8de84487d64974d2ff94027fb7efa14b84444896b, 0x518f2e6740c0139c21d005b7c8f443c0d1b2b3f73fbc476ca8fcbbc2d8463487),
  (0xf578dc4bebd6e2a781dd1d3de245e7dd2dcf7bb73249a89f56036e8c06d75fc1, 0x6304c0d8a4e97818dc847c31146404abaee362889c39afac4c028903df2ce7a0),
  (0xe82f4b51fc9f773ad9d2e2f4559c7ac12abe41909baa9efcae51dca2a91f6791, 0x29b47fddc9f7b1e01d819fc9a684f70cc0276facfbb596fca77130274073e81c),
  (0x2db1d445b37b46de51574c9349532ad3ec881c595b013e93358de103459b1940, 0x40c0e5d770be02f7aea1c4a4f43c6259c718af75151d24eec6445b87df239fd8),
  (0xe7e1043265f046d9f8e53cde9745efe72124f1fbfedf04ea6a4590f4721b33f2, 0xcb6a0a0b4fd12fc59b5953483743e643847e339a87253b1bc3fca28ee4d0c7e6),
  (0xcc83d20f811fdcfe1b24b44c005e912d5ad009827a68bcc2fb6836c327d02dcc, 0xa593426781a732b2fcdcb1a8556da9c2699481971475463536527ec1666fba0c),
  (0xa124050134d2076bff4b4c97a545df1f609ac13b6067b341ec1214eda714181d, 0x62c2adc303942a27d4e363afdcfb46cd254cc1a820638c436efa0c231409ca97),
  (0x382b49f9b15fe64bab93c098c551bc52a55abb2063736356c67b9df056e46483, 0xe4c589d9191f07145f13dc64bb45650979caf615437df4d69ec221ad4dff8d47),
  (0x5716dd73062bbbfc8b51d1e21f55988be455842e77313ea927b6a8ab3fd40e09, 0x27e76495efa6590f565107290911cca69a0e77b61b85be3b633c11e54e8bf3de),
  (0x665ca49b90a7c13f52eff79b1cfc91732643672b9a2cd5e5e4ac8b33070d3aab, 0x35986e7bf56da4d7ae9ebbab3cf9a5308a5b922d052f13415a8dda59b3efb998),
  (0x760575d8de13a7bfb8d4052241f16f86bb0cf8ba3198f7dd3a636b5cff3513cc, 0x158c95fcdfe8fcaa6aead61f3c40a491163a3ecff509ed1c36f74e169f7aa181),
  (0x1d52e6bcb26ab6ddf3ba5bde666b597079482415342faed0a3991b6e13cda46f, 0x1fc7bf7df7c58817d9575714e7dc1afa4930db2aea076586768ba1e78608dd3d),
  (0xdd1764eec47cbe51113fe413e702c42a0ca277fbe58cec376b47accdd9eee96c, 0x7cff95c4001b081c355685132925b21250cb74595ce9e1c0041e7cde7b3ed739),
  (0xe3e982aad370219bb377d4186b2447cbdb7f32f79a9e0c8a63ee4cbd8088b454, 0x8bbf1d3375040c8fa13b4da79585942372c368650773f24f06ccc1e4c2a2a593),
  (0xb9e8e77dfd0807a1e5fc718b20fd777148afcd5b822d6ee2726f0973da50c991, 0xe5b82405cb27ff502b7c77b823807bbe6972930e618e36f37f5e0f4499a7703d),
  (0x0a9e252ed438aeca040a73c5b2952e37d64b7a1d2dce4a92ba8b8be3bd379062, 0xd08e47902ef442c8d67133b85c417a181a31ca00b32b2d63dd43956bc39d3bcb),
  (0x1e5d55fe9cb0db2f5a5c31e11e4a45a14bd863812b4a739f98cb1ae9255c0980, 0x2e5bf8ec81dc72b0536b21a458848c24026b389f0eb8a4f474661b068ff5cc29),
  (0x2c6360bf7800caedb07dfc6fc74045ab5c16878ab771b64503c187d0ad886aac, 0xde29d50a41c26ac290ffbf2492a79aa6c9e6f88e7c9a6dba24295bb5b9c972a3),
  (0xad8f2c9d1abc6933606e986db38023e35b020d8ae0bced4f9f0af483d309cbe6, 0x8c5bec98c54db063e8e9771d2e0680bffe3e18a952be5e4d19292e1de7400e93),
  (0x09779f455c7c2dd8a3a72ab4d4dc4794e3fbf28f046f66d82af9662a74a55d1f, 0x3da67cfbda9a8aff8cf8fef9952e6255d5a7509457d6a6dfd893bdafc3d19d8d),
  (0x07c48aae8fd38a3d35865519a9a65d5a34e6c5e38f90eaef4c23f62a2c160dcd, 0xa0871f6bfb0ec93831ecfeb6e879324c2c09ef231c90936ab7e7aeda50068527),
  (0x26897ae265012b9212e5b0467594f8d7c90caf39861dc1e6b1f0fb68d84d835d, 0xd2c7980d679b3d65733e343e3bbf17e8403ee41c0991fbdabcf68a08a4d6755d),
  (0xff2211010a9b59a46a8878ffbb15509d966be492f3c07a6f33056232d2e11305, 0xbe0267e96ae8db870fe752628b0c8022c6f2c940336e64cf6c9f564aabe30129),
  (0x7a76e9e3bdf6271da0d192bd832c4168f085b534b237c45822e192f193bc042b, 0x51889c8cf0ec0469a3be02a681a7c3ffc85345e4b4db0eb552a882fab88911b5),
  (0xc043f2bf8829e0ee75ac59a6241d84c1cbb4c6fc1607aa419d031369a5e829e5, 0x3d515f74a35690b39e65e75e2d8fc6018bda40b9d87cbd9f82a38f758ea5e185),
  (0xb0317258e5d37cb25c748b2ed085756e68b83b3a8630215f534acf4fda79e5ac, 0x65296e94d399ddd5a147e410fd1754bd7d7dc96b3d9d50696735841ac5ccc2c4),
  (0x51fdfedc959cf047214625e6dfa08a5d8a5ead67500c277bf6b5b2d0bc8fa5bc, 0xed66af205a900b3f2fe187cb58ea0edee36ff0cf9d9bdc3f6bc9430b289fca32),
  (0x710989c006a4f1d0a99a9748bd07e7722d4066ce37a362e700e0968b5fa9f4d6, 0x94d874f8605fbcb4766f11448aa24e2cab55c5f01743293dd5dedf35ce40cbd8),
  (0x44c0e1b8b51134725a3915cdba8d4d25ee605eb69d04ef0fa365f0e8a518001b, 0x8bf395cbaf8b3af2a88fa05c1fc4e37289087a53ee1d4f0ccbb024e88b6740dc),
  (0x6d51afe89490696ae8b6f2662cf8fb81a35daea080fb3d321e71c9a1deb8568b, 0x8c6865ca72284ee8727cfd9ddf6f463ce3d24b7f8621908081beac6e51803a19),
  (0x2c70ca44e5e49796d398f9222ff2ebe83793909be7d11dce32c88b7db743f4ef, 0x00384cb6270afa8b4d3a112cf1d8740a7826f29825888e79df4d9929cb1131b1),
  (0x39570c16bf9f4433d73d577da49558453451c25662d05106cb64125b3ab48095, 0xdad4b6723e92d47b5e774a5854c6a836f1c3d8d1dc76e102d7dfaad3adecf263),
  (0x3d2db93b9004ba0f8aae8bf4030c00ad5fc62478df0e8b02be7e990ff0d796a0, 0x0ea6e007adaf572458db343aa39eaed5e907caa76bb07f34e48c8a79d85d5ddc),
  (0xa651f5d831d6bbdd1f897c0e1da0cf6c3e32279677cb637fe00df169d23233f3, 0x78bdd37c370bd8dcca753636d0abcd7ebd527272cdaa5e4add61af191a230c76),
  (0x1491ccaabb21480ae04ed4eb174e42f865b97a4ddadce6e2c23916c217cd93fe, 0x4da2b7ef3ea12f1f9f4a88a301dcd0ed3c3862d7587b479a145a828023196332),
  (0x4ee5cf3bcbec9fd99beac474c55acadb404a0b32f494e237f8e7ae33b126e48e, 0x255c5bfa3dd27b628f436981aa45c16abd905fe3b76808fd336b33b97df3c8c3),
  (0x74610713cefdd9bdb78d4725745b029bce23edbffc068a8771965cbfc3dd9b4d, 0xef1bc7d0e685cb2fdf43df9f3d6f19e30204672218e49bb67116f75f1266bf52),
  (0x2c3fefca19cbd8861edc2f5cc2290570e1961b9cb77fedb7cddb27c17078c432, 0x8eb7763f8586d90af03977a932aa846396c610fdbda71ceacf880a36c2af389a),
  (0x54778ffb51b816db7dc710906a09c731c871868342837a353f3424542a296e77, 0x3c13e6514c266ad7f937fda461da6114fe3c105f8592b70b6b33bfecaf06defd),
  (0x3dffbb5f25e61a25beb93b0e20ccfab92eeb5d9e9de54b72e363a829855938e8, 0x55d787c5a1c7e72d6ab283a1e5e9b4600cb6cc3d3964ce617f655e431acc093d),
  (0xfa17ef8d4ab6ef53810c762671f311f011e80219ac4590684d2efd47deadbf02, 0x7764196eb08afd0f546871068ee61da35cb5ff3f0be40632af47fd2593e43bff),
  (0xdcfc53b34749110eaad7dece184efb4fcae81966cb47c387831ab3edf0290a8f, 0xebedf5f8e901326fb116a81d6284180ac42a1ad6b91f80676698f23c4cb632f9),
  (0x2ea61e2a352b683c56a65f17d18e6e234201852011d09fc9f2274c9f97e3e044, 0x5868c73faba417485f7268bfa7f04d6f9e7bc721b8ff522d27d291bc575eaa94),
  (0x0c19e28326fab6315a06b1e9c5ea90d7511e7842ff7191359f85c2db7be0eead, 0x0621b037c508991d39dbed97f65f800489389cb43553c06a8af8f0cfe9206c55),
  (0xc49dfb66934bafadd84ddfdbb0e87d035385c8b20c06b4a81c52e63596e78cc4, 0x7d882de3d32920f0034949033b8af1903a073a843a1db56b7071e17059f70772),
  (0x88829849db903a052d28dc30782653c872b0b1786f948f5191633f0ab2cf8940, 0xd12be0fe8b32643c7af739882d9070644b9e7f0c86f782cbb8095d0c6a19d2bb),
  (0x3246e8aee29e10b97e2bb0b9feb8a0873d47ce624e2378ce358ed23d0e165dc3, 0xfc598bb9047d1eb12613b4f20e9940c1e9b4ca1bbbc077cf459f4ec703ce2b4d),
  (0xda11055493c6c6240c511525dabe1943a9dee742167c65d89744c62b45036099, 0x73baaf9a0d3d76b4063c06f4ff33bed1cda5111d884449a6ae00a52c651a3be2),
  (0xb00cab02360c7c13602bd59955b223516886c9dd0c039cde52fb0c9d7fc63668, 0xad956d9c64a5071071093281f49ba27841486700b55c3cee8cb616bc81b69442),
  (0x9d774e4e4787d100b2db4a96d26f247a54155cdf5980ddc39561f28b638a7e81, 0x76843cb37f74b98d7493483ee9cfa3541c363e2d5e0ae06a1a9e6e2e078637d2),
  (0xf4197ed87dff12df6830d24643768f55b452ce9804460a8cbaca6591d4b66947, 0x0ada31f6a29ca3c66feff11b080338ae59f5ca8f4b1e70936521b472400dd0f7),
  (0x2c2a3868dd5ec7c2264a543a2a6f89fed83a43ab05a57ab424794eb694a2c215, 0x81ce6e96b990585c42c1d235e7e6cc19715ea6720acd1f11d33739408439d9b2),
  (0x0af556ee4e2e897c6d91ad78d8a4176fd7b2580c8f1050ab04e5dfe0d809c7bd, 0xbe61844e6d637f79ee2a4eeaefce217452ac9c227ea78400162a8b73921de0ac),
  (0x1b192421d5cc473daa1c5ea388e5402d72d3ac3d880836f40491f1bc789a283b, 0xda3bc8656d837930639961d03a191ce2b0a8482d9c6e75b85c0b99989dc84cac),
  (0xb7b4d51aebf8e3038b403276746abe4084861c4164d133a7ca990653056e6f8f, 0x50518677281fdade76ff47b6630c2feac997152c02419e6e05b43211220a255d),
  (0xb43d74bbdd09d19bcc89f42d755011bc8d4b4eb537db303b3283b8bacf902b0b, 0x30045121f8d40c2013c7659610ad72ec364eaf8cb51c192765746bc98adba350),
  (0x78a61cf4637024f611e45a9e86cffbfecd78cd74e6fb3bcd6d2d99b7ea7b979b, 0xf33effcf4beee09eb9db26a1342f8586f1376854458cb288d06bc8723d502295),
  (0x6fd495f71c52c66d40ba1a4207c8d9df6d09b8c16c9db4c8d7e0c4cdb30cfb3a, 0xfdc229af4398ec7bedd987f749ad722280c2b746e57d8362fb0e169f275264da)]

/-- precomp.rs, "1G..64G << 175". -/
def row25 : List (Nat × Nat) := [
  (0xcfc20755135564003c57411c269064084bcb6e00e6a9c3c2b0d1ed8452666a58, 0x094e142ce762c2b9d70ba90e991eca74a30ba2868b7dd31ea08b1c505294dba3),
  (0x4b2969041b265a9e525c2144fd1bf7fa1efd130aaf4c89a7b81d783e979f3925, 0x9df088ad022c38abdaa7a54f403563f335c82e3203599d8aed8e9634b9db65b6),
  (0x136f4fb30155be1d809cf8523524e36c429169daeff0354ee5cfb066bb3fd30a, 0xe2bf6af25eaa244ed9928b3177aea73e6ef0f0b4506ba1a14826af011fbba712),
  (0x808fc59c5da4a32557b8a70cf6845dd8688ebe99e3ecfd078d084f124237b64b, 0xbb143a983a1e8dc8b5a5a8db431ec29bb66825d5edf29386a9032b2ba3585862),
  (0x9ae5a38043cd04dfc63a657e4606eaca3a7f176c86ccda9035ee94ce12ae381b, 0x4d65f034f7e4b286347b3b359ff20f071f5d6d30caca5e649bec8d15ed251b46),
  (0xbf8f66b7e83e906996dc9ba1f424b578edced484b105eb049e93ba24f111661e, 0xfec85fbb8aab87084281d89998e73754bf07f3778e2cbecf872d4df4d7ed8216),
  (0x72b05200a1545cb6ae9775fee9b02d42e6a116ce42d052999a3c0deea5ba5b0b, 0x6b000c064a73b671c8bc5f37e4b12a97e58930788bbd9b32bc506f7d31a3b4ea),
  (0x4f53916f776b1ce367a5e29d4280db9859805bf01d6a537013b5bf22765fa7d0, 0x999f450d85f8eb1d1c50d4b7e5809ee34206238ea085d103714ff61f33ddf626),
  (0xf4c88f365aa6f8fe27f31ed5c6be7b231394cb73c66a9fea658a6051e4c79e9b, 0x060e7f8ae96f4913a788097d3a92851d68b3a7d5e3fb2a6b0fb0721f4aaa499e),
  (0x247aa4c787b097bbc10b6fa4ef030efd42bbf465a21adc1a82eebe731a3a93bc, 0x5825653c980250f6a4f6ff11344579cf6ffbc26ac223523e8b8dc632f60c77da),
  (0x2648487f792c16131cf55e7137a0db380788939337a0333ab2dd097ebc1aa2b9, 0x406a7a341eda6ad38ee761de9d276be26239c81d0eabf129dad013363fcef261),
  (0xcddab96d8bf236acb696e0629795914b54f20a529bf7f0264bf367ba4a493b31, 0x847a670d696b331788fc8c87468544c5fa1d09eb81cbbbe74ff2c70aed25ea13),
  (0xe06f4097d5d4ced3d6e7680bb310346caea638c826dee0b5f133421e64bcb626, 0x9063d8a3333c74ac2e73254f52d0c180f3d867fde589a59a099614527512a30b),
  (0x217e76ea69cc76131cef423c0a1ed5d32ee7464b467899ededa6c595d314e7bc, 0xfa5817e2f3144e61bcd6de849fc74f6b12d8016b8a893f1627ccce1fe7cda917),
  (0x998ad9f3f76ae7b27490caf61d72879f1583eab40bc619921f3541640821ee4c, 0x0ee4ed6e542e2a10963784eb8426b95fa9d7e1e6e8da3a7e1e181950a41157f7),
  (0x7b69cbf5df44f0648c72d3d2c8de4fc693f96472fd4211bdb79d4cc5ac751e7b, 0x9be7048696c9cb5d0a437f6c7917d60b1a5325f8f12894e23da90ca2f4bf94e1),
  (0x5c686e5566eaaf5a6f0119d3df0fe6a3d738addaeebeeb57b4d880bfe1dc5c05, 0x58a947fa79dbf42afc0935148c546c96bdd0264b6a497c219cb10b50dfd0b7ec),
  (0x4fab1ac5a2188af3c75235e907d473b2ff8fb02c88bd5580c0b48d4e49ccd6d7, 0x6d8260a9c8b013b440a5c9cc70305600e8c946e80b7e7d2f030fa3bc97576ec0),
  (0xbfba35fe8461ea477170e8702415eec1ad090da1a4a0d3110368304f70bba85c, 0x02160efb034e2c4836c65cbbbcba0e0fa47638f31afc415f6279019ac1e91938),
  (0x5cd99e610cc565f13e5a8809b17b3d8c498ec047f1243c06e6c51073615cd9e4, 0xbec9746f0a39faa180d62b71880c590ef156f5baa79061e281e312df7851dafe),
  (0x412050d9661aa836d5f00f680da0794a09e43bb5a81d5ff21d98a9c1c8ed1f7a, 0x53868fbb9fb53bb9df4de847308e33536dc05ebbb62a3686a89f7c4e90747e40),
  (0x080f9fb1ac8e155573d905f707f57ca341a9fce3723fcab42b09d2c3cfdcf7dd, 0x7320fd320ccf0e79602846abaf48c33607d35586ed9a147f7c088e849ba7a531),
  (0x8b96d16d15605b5ff27ea3d6434267cd52c2e300afdd2905aa780798b18bd1ff, 0xd19448d65d053d5ae9b5e45b87f30076e7f58b8e743d25f87bb310494b45706b),
  (0x1769788c65641e1b3e59b10a67c3489f6bc7d463dafb52691ecc8cb9d3210a04, 0xc971da0d66ae980903aa1c616908536e7066d6e6236d5f228a53b82dbd6cb838),
  (0x6941b2a1bff40a87020573007d6fb5563b8420c03092e77a01b3a86bc49a2fac, 0xc75bcd76449c3e3a0253bd515751e299878043633424ab36140b63080658ff2a),
  (0x62a6b802745f91ea158cea618110bbe79c9d754e56c26bbf92eb40907f8f875d, 0x319fe96b886333650c5277eb6ea6f40c445b6a83ad57ef10a79c41aac6e7394b),
  (0x60920d08c021ad5d67d153f109e942c241250c8422bdd1270b0fc61f385f63cb, 0x2a9bfe773c2fd94c518c51a1de413032b7ffb8925bba3299229f5746724d81a5),
  (0x2c94a8b3d236625c184579f35876960643093e16d3d6ada1cbcde2393191f4fd, 0x4ac3f5f3d76a55bdf72c31c12e7090a23d4ae423d8d9f3c86922b9c05c437d8e),
  (0x748ef841780162fdb84740d0dd440dd70d5271001b5cebbd342508fc6b6af991, 0x12c56f839e25fa977d06555ffeba4ec9eadfdf05f7300f27a8dbfe0edfc6fafb),
  (0xb00f6ee66a5d678a5bbf2441f6e39dc5ed8b1be63125eddb77f84203d39b8c34, 0x2c324341d161b9be01643de40f5b4baadcae0f5817e06c43ba456ecf57d0ea99),
  (0x2d8607e63a9fb4686116004acfa9bdc2ed325f1f76748e0980177f55e126d468, 0xb6b0cdc0de9d7448d26cb45c3b9009a03a525d2e8d10c5a10e573e276009d660),
  (0x22dfa5579cc4f0699e158614f1b768d96faadebdd73d68e5949c9976e1337c26, 0x1c6ca5800140b8c62121353c8d694da124866c61a504f5b9ccd6da17be93c6d6),
  (0x7e8d3ac6982c948afaa220c647ef9898b83bffba032b82b3c245ad8ce964021e, 0xfb2b0563fdeb6f66386bf3abc87c6fb7bd54c3dd05b15ff41faa2091bc2d124a),
  (0x2570dfff62671f007ec9bbf542f6e557e9ded649efb8912d4e77c5575b45afb4, 0x498ca2555e7ec1d844e7dc0495649aeea024b238f37fe5b42b3bfb7888e084bd),
  (0x95af3c6e041c649fbadd2549bdc259c80db6facbf36085863bc766eaaaa07e86, 0xc6542e47a5d8d8ce4b67a5f1cf1d9e9d9b5356ad008a88b8b36a928c02e30afb),
  (0x6afe32474148508300e758b13c80515acc826fd39867814173061fe87adfb6cc, 0x1a6778b86a97fd0c344a55606961b9d6b8cf388d4acf51e10fcb08b9b6ae8a75),
  (0x84f1a6a49594a8bee95f89dea3e216aade9fe47d16db68ccd840fdc1ecc4c7e3, 0x93365b1382978f1980a5d35078b58d46c5cfda19adc817a37ddc7d725a7b162b),
  (0x0f201022b216c079d94b6b10d70c45f40d6d10d24d70705d2e44d22526a1fc90, 0x3394ff6b0033ffb5bfcce3e1ff230be7a8d2bc7d7e27601dcec966c5658fde41),
  (0x4550bd2e23ae6b7d5194ded3e82d15aaaac4b0eb361e7868d890c5098132c9af, 0x1fb1b8993667b9445ea124d0a14aa12dd989bffa91638b803fda318eea5399d4),
  (0x8f01732d59a83801915fd62073adac4491df144a57e8613795ec796944c44d6a, 0x29476f96e65c1a02c132f958b1ef801006de5e7cc9d6d59cec579d253aa0a633),
  (0x9aff2f21c613809e63e6d08bf9e08002ef1105b21b9f1e9e336a77c0d34c3565, 0x8b332e08127817fa86f041df8197fd7ade71853e6bbda681b5754f853a80e75d),
  (0x92ca0753b05cd7f27ef936fe5bb9418389f7aad5d5cd0c9805d99be8b9c20cda, 0x94fdfd9be384f8b7f2d9e24249e4fbf202628cc813eaea929d65db1174a1e035),
  (0xa13045bec5ee53b2f778bb78ff45ae112f7205b290b409a565f5605463428c6b, 0xe99f3ec06268b6a83578f0ed1e9ade22689cd59fffef8befe00a14ff03ef77fe),
  (0xcd2466e32218bb5dabbb336a2cca451e2d1a7053b8823a4aa2057d91ea1b3c3e, 0x207c4b8246c2213febb9bd7345d074507e312aae7690211f3ac1f42fc8cb762d),
  (0xa5670fbec0887056c08f3087cd67dbf694e45e966790822099d425c1375913ec, 0xa77fefae457ac49ba8c3f55fc0ff4952d5a56aea786fec286717b64a66f5b8fc),
  (0x504a6115fa61bde0c6f95979e66fe464d000bdfb509edc8a29882d7c98379d44, 0xe67ecf4969269d8621dbff31834753bf2d3de26df0c21a5456b3b871effea31a),
  (0xf004ceecaae454e6ee794b15d1b62a8d035158047f2adb5f7a176952151fe690, 0x2008e04afb5847ec154181df1b7a04ec3b62ff12d1fca7510897ea7cf0386fac),
  (0x52a2c223c8540149669f30d3e9c544f72b419f7322942654d147148e41dbd772, 0xe65106514fe35ed174ee878da3933acc5f074ff0f47869f35da9ee14634dfb02),
  (0x7fde089d946bb0e5dd5e924347c00d3b51013cc0a8a566aeb3eb9482f1012e7a, 0xbf1f5763446c84ef7c1064b85a1a35bc12a136a499fda062030754fec731b4b3),
  (0x6006198773a2a5e166d7ac006d8de4867fba9d09dca21c4fed29a56da16d4b34, 0xcd7e28748e0af61d9911c9b8ee28cb0d3133f70843c4599c8b400f869da28ff0),
  (0xd8dc98e091e8bc76881fe5be1925253c85214f319cd4a3735a85f0f272ed91fc, 0x5cbff4f2e52ee57d5581e7dc3eb34581724952ed735bf97a7120affe585cc3a2),
  (0x9126332e5b7f00577a0b95719beec7049beaa7f3f1d280d08d320a0e87d8cc7b, 0xb6092eec8d6abfb36404694e9a8ae25535bb2c12d945eb2401fbc1b48ed3bd6d),
  (0xe11e4bcc64f0e07a8aef94406a50d3537b0a5af26e2499224d76143fcc058865, 0x52573bfa21829382f403292f1532672d7706e20cba0c51d44472993aa14a90fa),
  (0x1717596c1b15d685c58d22aa63eb065f08da65c0a4a723186a7bb6a93b5bdb83, 0x42f3b50d57d6985c487386e37c292cacf688ae975941945a112df0d0b266d88b),
  (0xe1bc81d074c323acc2feabca6951f762c8f257d365ca8a8d6da4f9986a90fc34, 0xf0aa9ebc6a43ac92d648af7ff0f84d2e10d86587be8a70dc1bc68f67251a2a12),
  (0x6652b5c7bece37940875c11af4c698c8b6bb02a645bf452b69e3be0427596893, 0x9c773c3a61ed8f48d1c69889a2e96ef76ea16558b5532b387b3755fd4f5c0499),
  (0x8f9a78b7cbbce61645d410644a87157ae26605e1f0e1d7912b653a409b323abc, 0x6c94bdde8e796802473e339efd08399981ddd1d8a35b964fcf1e44aac407eddd),
  (0xd3624f3da15b9fe3628a35e3df87e10e82ae44ea738bb8cb5a304ada8545d185, 0x21f363f556a5852c1f60336204c37bbe7d0efcbcbdbc2ea5cc44209b14be4254),
  (0x1f7246a481910f68de129c966961c51c2251e0e1d8ab10bba1503d1ca8501550, 0x6120a64bcb8df8564d6d62c922f3bd683c47d33f5e6271572eb744ee5f2591f2),
  (0x41c18807b1252f05e128a134ab3a9b4fa92b95587ef397833a9ac6c07b5d07df, 0x101b784f5b4ee80fbf829cef55246809ac8dc6dec532a9ddfc7ed08980ba9b1c),
  (0x7fd8ae5fc17b9614fba5202fa97534a857b09dbe41d2801ec09945bbb6f11603, 0xe7958e082c7c79ff0cef7bfd2dd7aab09572f77cd3868c4da50ba66678308435),
  (0x6fd72969261d21b535f911eab7950ee3716da290b07c700481262e4225346689, 0x0ef6d5415ff77ff720e21660742e93115b0026ee887f12a15238980308b640d3),
  (0xf1e0f84ea1d3c233656e5d0ce541875cf21d60c968a64993969127f0f9c41135, 0x9f04b82365806f195da8bbae61181ec3be2da60c061915529bcca35906002d60),
  (0x72edf52b949f905434144f118d47b8e8aee806fb52c878c8f1604a7dd4b79bb8, 0x33b2818841010d7486e8fe58296deec89051d0c09cb7cef3ebfca84e2127015a)]

/-- precomp.rs, "1G..64G << 182". -/
def row26 : List (Nat × Nat) := [
  (0xe63f4152c92e8c8f8cdfe205c93987e89bcf21e38131ad4c01079383171b445f, 0xfe1d75ad242cf6b14f3954e53b06e96862ebb143c980f05a729462a930add43d),
  (0xb8003478d4a4a068c44bbe322574692ad4c1c8ce2f8f01aa5f95c6c7af8685c8, 0x763d517ff44793d2b05bc82e8f2bc5cfea1db16bec04d3997c8fc6e52eca3cdb),
  (0x56c8bebdfa2286bd6907eb337375d270644b1cd46575f2404451c1b808bd98d0, 0xf8239898bf17a3de313065b7c95c754617da427aafd60242c713d2acc4632b46),
  (0x38e13092967609b6af22ca0ae7327afb842c7aa0903203e3f3b7963f4c830320, 0xa77989cac3c40234e4174474f63316273cc3e831f7eca8c173b8fb62757558f1),
  (0x0e632a98fe6f8c522b472b30481f719cd797fb7db70e296ae5fd17a144a081e0, 0x810f9efef679f0f92a2bccda4c2de6cff51088af2d987c6289ccd116c5f0c284),
  (0xd2830fdafaf78b00b0bd77479dfbbc750b691d21e5fa5d21b0f394b97ffe4b3e, 0x34aef03d454e134c73bf6f948ff8c0b34b1f754598096dabf78c249c52434f57),
  (0x75157b69b3dd2863a1b492b0dc3a0eb8d6ceb95ae50da7d5f8d151f4b7ac7ec5, 0xf117f5ad7445cb87835a2aea60fa9ddabe329ff7bc5fc4c7e2c4c74ec5413d62),
  (0x3d846019c681f3a3fdb516ace0874bfdfbd3e3f7ceec74e6ae8317f4b0166f7a, 0x2a6279f74e0bcb5bac03cd326668c51eba68b4dd2b63c5010b12ee5c7c1620b0),
  (0x41c6a658bfd68a52d9a032682c078bec729469791dfdd3a617bd69b06ae85c10, 0x1333af21bb89ccdd5a600e74058ab8dcbaeec121b10d144dcdea10240e023900),
  (0x99088b4c7a6fc96e657ee27d71ab98bc2cada16e3b7144cfdf25eae03aaba1f1, 0x22071cf686f064d03fb6b3b087edd68542cbdf8ff158c3ac05d5c0a03549dbd4),
  (0x0cdbcd7616cdeb5d3cfb74efd3f1f7bbdb81b703fe7fae8cd2d6721fff2811e5, 0xe4c3074cd3fc0bb6fabbadca0528fa6f02b74454340064d64f39642a566a808c),
  (0x7a03aee4a2b9cb8e8721212568edf6f5c3e95f4f34741dd9b32cb8b0b796d219, 0x8aacb62a7f42002dcf86a3f4902ab04f0d8af9b1948a28dc0cd3c376f53a89aa),
  (0x12c97a204365b5e94b405209c5e30aefe670b54e5797bf10106985ebf62ffd52, 0xe1985e21aba0f4998b9f30d1d46e726b13cb4ff63907a8c9104646ce1fe32093),
  (0x3f278cb273f00e4ff2623fcfabe2010a24f46a93cd30f947c573dea910a230cd, 0x4207cf07190d43697c50d1090895b709f1cb9a2d8e760571ed55c67d50b920eb),
  (0xa747d648569556f55ab10851acbfbba5a9f8b9ad3ae9c5663b027e81c4127fe1, 0x5a723480e38003d3a345b7977686279d15e0f77dbcfa3324cc172b5c2ba97bf7),
  (0x3a4c97a471771969d76cbaf4e33f9f77f3e558c4bdee5bfdfd8e139f8f5fcda8, 0x3f9b702563d2262cf115193cd759a6e9ff373d9613e6c2d1da27e84bf6dce6a7),
  (0x7917ab9f78aeaed8d807410616b11b0b30779d8e199f8332d9764a31317cd062, 0x44d90fa26744e6b7010b7069a371a86c2e313563136eda33b67a9cbe28fb1d8e),
  (0xa012062f32cae04fb900b028957315389fe6cd9d59048c4868190867d6b3e243, 0x22260bea81362f0b14ba5117b6ef3f7347e8c54a41df12e28107c8bc9399d082),
  (0xd7401e4c3b54a1f5ef64d314e311b6a02192999f2321d63690ea261e1a18cc20, 0xeb5cbc26b67039fca142d3f63786bf4046ad32938fbffc4b190199836fbca2ba),
  (0x6f6e149bc162225c78f6d2b2a5c9766305e0f88a12b5848f9cb0ae6c252bd479, 0x7e1a0a8518aaa116caf49a5ba8471827d17bbe98f373be1fe602235cde601a89),
  (0x47ac8745d8ce728967b2f7b4ae34e0a51e233839f1c98a146c833196270580c3, 0xcd9da6c3c89e8388603dcf1383608bc9274a43374ee50d092b74779a100dd467),
  (0x9774457f265dc57e3075f31f2f4bc071cc38bb59b6d18eed2660199f355116ac, 0x20f140b17872ea7b8d05e57b05ecaa8b6429d07f4ec98e0406a6a9c8c6db88bb),
  (0x7e6fa37dbf47ad1c4c5c29af57b14b1248d3a020f252e909df8c0f09ca494693, 0xcd35c7748e8594806a6242b8b2359412b72c0d486be5f41f66e7b50649a0c938),
  (0x9e3c3c1cde9e01b96c29b637601e5dc958c1fec1f72aa68012536fea87baa627, 0xf792f804f8a82f216ccd6cb14879b397351071022a12f50defc8127b2bcfe0b0),
  (0xf6229c46391012dc928410dc4b6208aaedddf85dc10f0850509d4804a9b46402, 0x44f9e47f83c8debc049ba1d9e9a947ea289e4e4baa444842c5a7c41e7727b9b6),
  (0xfe57c4e95d89697bc5fffa70114ebac3fd2e416af518f427fa77a1fe611f8b8e, 0x1a38efd15f1d6130318cc10e2498503431df210fea585a45fdd053acb1aaf613),
  (0x2936a01ebdb9b6921e38a58890c1baf9b258514d1dbe88aabf86f2370b1e9e21, 0x8717e61cfb35bd7bcccf0f12c42d2fd7b586bf7170f98ecfd576de986dd5b20c),
  (0xc0291d433bfa528a150c294daa8a73723477728f0b3e13d58b1e572235e6fc06, 0xb9f8b71b2e28e156ba93e244fb6e1c51deeb31e45c2e8a7cc6c8bc67cec5a196),
  (0x16bbee26ff72b82bf8c835b9e7ae3f30e3c5ce6946bbcb1fce65a287968a2ab9, 0x7aee94a549c3bee5125cda29792049321e139970f8b1d2a0665e2017fd42cd22),
  (0x346af049d70addfcd90829fc48cc3645f7c376788f98166968c7016089821a66, 0x0e266e7e975a087be03386eaa126ab90f90c73ce42e650ee2057b232370bf29c),
  (0x38c7ca394fef36b87438212dcac75a4e7e2989ea16af45b880578eb90fca65d9, 0xf8f998962b72f8414e6cb426ce3a464e26ab5a66f72c7c488650c494d402676a),
  (0x805ab8b6a02425ad1b920d61c7b32919563459ba6a5913e48c3184911a335cc8, 0xcb647545344cd443afea51d8ac2138d76ca4846abcf5c0fd2ac512da8d006086),
  (0x2ffea642671721bb54f9ec25dea7d744ee66a2de819b9c960429ee8fbd7d9040, 0xb5fc22febb06014d014b50aa29ec7f9104304536fd0dbc8b4f19dbd1114344ea),
  (0xde608d3aa645aeff0cadba132e707c2ddf48abc0fe85c72760d963a91ee682e0, 0x0a5e736f766d6eaf8dd0629d13593e413c362edebd94de1f05f1c28bedafd883),
  (0x651c374c09b0736110d75a1f5601c209a4f9ef87c1797556bfa92311f68cf9d1, 0x1f8b5ca62ef46140f51ddc264e15f33a0ef000586fa9dbaa49950b5888b5cead),
  (0x790f92599ab0062e1bccf332107387f4bb75eab2975ea978343ac0a3ee9523f0, 0x6a80ca3493ae985e609151877265f1ee06e08b8462519a50f1a363ad1e4f6a5f),
  (0xc932ad9581c7c1c0b5c363488ead03f1b13cabf28d52a7d681b29768aaba4864, 0xe6ceccdfec540174233e3f0cdfcdb8bc9dac42691b0df6485452708ecae1e27b),
  (0xfd95bc6bfd51e0dc111c0f6dc3b375a8cc8a7920699355d5bd0d845e95081181, 0x0bdbfb94e986391479bfd289adb9b3974d142bd6cb01a06d4a106a266888523a),
  (0xa01be628ec8523fb13039deb0ac3ffe87f6abcd6551c042d29d8a2291660f6a6, 0x7064091f7f9a4b178aa4ff4e9e9144b0c74114bdb903928e6ea341030ca1c328),
  (0x84f21fd534a1202fd680bc467d5926de81b8da7a604291f0a3f4f521e447f2c4, 0x59f72f7e4d329366809ddeec5b19aa4a1ca4861a39ab8d341d1e31814e9df3d8),
  (0xc33c65be73b1e178b44942056670215840bf739cdd67d64fa2f93f41386d5087, 0x38de9cfb7e3c3932cc7c7f29cd6e1f3997f4519adc791976cdcd657c38ca6153),
  (0x39ed75a7cd6a8e2ac0390266f114ae87e9f8dbf9f067e914e448eba37b793f85, 0xa320fecf52a538d6322c38489c7476db67f8cb8b6af9bc09adb148487ffba390),
  (0xbc04d32e90d2e450531c4644c331be70dfba1809616bd430e0493002b2aced2b, 0x6b1949fd0c06348131875a433989b4e32c44a0c547ee5a231805a0d10f9f142d),
  (0x0b87bcd015ea993203dbe9a1f79466a83ff0da03e9d5e5172dfb9e08be0f4492, 0x645c0f2992635853699cff661d3b67e56d9598da817edc8aeb64fc83ab1f58ab),
  (0xbe4c720c8b48cd9b2cae07ec2d9f709182b9602a2241659e253cdd82eabaf21c, 0x7b26d3ebbcc1249483422d213e10ff1236e8a997af10bf406ce5bc036f08d6c9),
  (0x184866003ee2864c4b604acedd6ba286c4a11b4d30afa05bb240d2d0c9469ad6, 0x61f6653a6d37c135b69f210b5700cf730d8f68c5ff4bfb0d5869d6ba8d9ce5be),
  (0xbac7e2a02d6acafdee879ae9fa1899ef0d81c4b972ba3a69ff3d432b5aff5a48, 0xfe23feb03abbf5f083031dab9dab7cbf4c288de15bcb135dd6d93f6c1c664399),
  (0x0d63ff676f03f59eac8ae8515e11115d140bb7101a09538c9f1b2466cdedca85, 0xbdd6d4fc34af030faa9859cef28a4b5d61c2db4e7e208fc1755e55517d234afb),
  (0xe379bc067d2a93abf95cd3a9b25035029ba14ffc243aa07cd1c4a26d3be01cb1, 0xa499f0b69ba6054fd903b9409645a968083558ec80bb412a3efc18e9d4ca8d68),
  (0x3524194eccdf0e8087e978bacb5249903baab3e530b4fc1c208b573cb8349abe, 0xb78e9bd55eae15993b1bdd571323e1e0e90a3d9bb90109ba627117257d4bcc42),
  (0x11b393eef5a86b5c171792f899c9785580178605d70e62970794b7469e03d278, 0x8975eb8061ce9c548698de4ca42062c6bd44737abf19ba5f48ef6582d8884f27),
  (0xba12aeae200eb87d51bda2de4df07b6315342190bc97ce38d50e57c7d7fe71f3, 0x7a778c8b6f94f09a4a6683a77994937c04619d65fad6d99cabe135d2a9b4f8f6),
  (0x9fbfee7f1562bac8352be595aaf83a99241a2aed1c2291658c50862320a71b89, 0x283dd737eaea3038d84f13dd4c034d6f1dc7f9e015120b86eaf658b95c4017e3),
  (0xde55d0c207a2186bb80f031b4e12fede6ebbc345fae60177197f2609cd85d6a2, 0x70178c71459c20c0108fb05676023e0d8d602da57ed191fb1fb3e37f24dcdd5a),
  (0x5d3b63b5a81e4ab31aa5ec20919d94d7a4a3ec4f02bbb475fad5a3863fe54cf0, 0xfe0ffffbe74a242a282925de40779614fbc586ddd1ac7a377fa733d85ad3d2af),
  (0x0c326d122fe2362ddca1d4e1c17cf7b7cea27f5f55e106493f39e67f906151e5, 0x9dea4b705c9ed4a90912f5ac03b7db1c0c3b7639c396dbdf05f7ac337dd35df3),
  (0xaebf9746a5a7ed0a16f9e2219490375ffaba0e7cfc278bac475e6e53aae3f639, 0x6431181934567ed382c5bb5cb3cf56aa03c4623cb2e9922445f9af3ff41ad5d6),
  (0x8e526f3f5b20d0fe610dc8756064e0072821895db9a1104bec57f2118be489ac, 0x2c5a3e306bb1735336b51162189cf6de3d1dcb9f800e10ff6e71ca775b645aee),
  (0x0c4e57b42b5737435b4b8f4b279d6901a74516fa4bf97906c186cd3e2a6c6fbf, 0xe965f3c4cbc3b2ddeeec47eacf712629b46793fd99deac2775fdb229b6e386b6),
  (0x0f1ef3354fbdc8a2e98c922533d956df7fc00ee60af06fda8dd1fb83425c6559, 0xc4329d6fc084609a6a814ac4d7185db740fd2945bdbff2882abb5145b79b8ea2),
  (0x66c17716b873c7105a4d4a7f824139b1891dd20de4cd2c74c9ba7b52ed1be45d, 0xc91b3fa0318406c5c0f8af54450c95c7d5ac4817b97eb5bf5e5bc1412843c4e0),
  (0x9c1fcd2a2feb8a104339ae3ca6a6f7e5fb57bd0790a2d611360c340aab9d97f8, 0x2f78f55b61ef3b2980b2814a2a5b4ca51b0b924c308076f6972bcca9c7ea7432),
  (0xe6f2e3da14efb27994dabc162a453f55c611eaae903d0a86f838744ac18a414f, 0xc87883ae643dd3183f5e15e02d40fa90692e382f8df6b5a45b7a60179320dc3c),
  (0xfcfd57bf6c8663bc4215d7f7bae371f5834d0ecc3adba2bc511053e453544774, 0x3ee4d65b9de9b762fd44a08d07625f623b49fbb4b5587dc3ded2383dd6901b1d)]

/-- precomp.rs, "1G..64G << 189". -/
def row27 : List (Nat × Nat) := [
  (0xe9ae30f8d598da614889487450436309658fc05202a9d89f64e5137d0d63d1fa, 0x883acb64d6ac57dc1e28dcfb1c1a6b44e27e9e068b6a0c202ed710d1818baf91),
  (0x7ee84e25dded8cc723f5d00319e277f979d6122fc5dc22358735728dc2c6ff70, 0x62d0792fb31aa1520cfcdc8402de7f423f3ea7c63574af6091a8afb063cd880a),
  (0xf65f36c63d8d8093c30cc9cbafd59ddaad283893e4109a7e8e1b4e438a5807ce, 0xd26231858616aa289c1017c5355bdeb5ee93df4b3e8191c8df31469ea60d32b2),
  (0xe968734d646f834e53e983aea57be365988c8b236ad9d573b02c83f9dec31a21, 0xdf94739e5b46f1b5782a9ea2ca44092110f3a624c1f1ce169137ea8f5da6309b),
  (0x64cf63c08c3d2b6d2cd5beeaaefa1e60360e70d6a4c7c2d39f9be006cce85c9b, 0x4f8b36c13e210bd074e8ca78ce34db9fb7e937c6d5e044e6fb107fa3e1cf6f90),
  (0x42ceef4d130e19655af1f8af518836c33418e0f74d4412f61df165a434a35ea8, 0xf772f4bf1090997d66624b1ffe98ed30c33761e5886cb1235560ca0b543a1957),
  (0x49ff51a1bcfbb8a322d0d865de98dfb17287f8109ba5f8d7f4e540bb4885d410, 0x79e7399f87dbde078018724f4b0f49663d31fd72170d541db6b6fa536bc3012e),
  (0x803f3e02cd42ab1b0a406b8e6d9c87c197241afec47b266a56f8410ef4f8b16a, 0xc097440e5067adc1c6097273ad8e197fa83b85f73bbad05f7f0309a804dbec69),
  (0x40c59ad94d66f21727bd0d32443e4ac0d7f9b51e823fc6ce730eafb63524ff16, 0x838fdb31f16669b674970312675a73c95043b8d5eb86804d6c33136f17c387a4),
  (0x17b53ed3fbabb8847eae26be0c27eb4d39888d93472f19d6c507b6dd418e7ddd, 0xeb2fea9ad242e29bbee096ec215e2d8788462e87cf488682fc27021b2b01ae4f),
  (0xe3fd41b54f41b1c655b566b89030ba6289d2e197dc1e2ad25d985b5fb821fc28, 0x2b5862368fe2f4dc8698622df803a4407f8567ca369443f4b738ac2eb9a96d61),
  (0x43132b6386a892d279162ee6722142525ec03906616da680bbcc00c756b95bce, 0x663e89248d5474ea592eaa8244415ccbd5b3733c9cd0a1424bdd3ff22f3263bf),
  (0x00089cda3b4ab529dcf6efd811cc3d2282e8df9dbda76ee68058a25e5236344e, 0x5a6297cda4348ed30c9fc15bea3edf754ea97fc0ef72b92591d3a071bd38a3db),
  (0xda11dae173efc5c346056b6d82111b459fd493ef82feab100d38ab35ce7c42d4, 0x214369a839ae8c2a121dfeeb7066fa58bdb2601c40d507e6dc7402785545a7fb),
  (0xe19d67911e73054df51e13f70471a5324c9d254f010cd34b195709cb06e0956c, 0x3a6bd1e885342dbadc18233cf29b2e2ec7141218b24dde05f702a628db5c7be3),
  (0x7a1a9660c4a43ee34bba5851f914d0bce2a272e4cd0eac653f747fa0b311898c, 0xa2280dcef5ae20b0f3ff7eb63d1615cd9d958ba97271abe3e5a367cea1c8cde9),
  (0x1c0f4671e854d21404cd6b6dda24c511ea5a2e3d5e83d11856dba5c1cf640147, 0x2a05f6419021dbd51b22d21cfcf5d009dc966240decf1f5b91a6b7a969565381),
  (0xb306333954991a21cc185fec170444935179a95d643e216f8c0ed566d4312483, 0xedc92786d633f3a3afe9065a4391b6b90149b0c64fa89bbbd801ecdb0081a726),
  (0xde08e346b44ffc5f43800e7ed81a071585833fde9f3897abe408c24aae6a8e13, 0x8c0dcfd1538c2dd8635d6129777c468a49f9387b165eaed17094184ccdeff2e0),
  (0xd94d3f1accb6fd9e874a8bc6f38cbeb6623758304c2767d3d6d9d9e37a6a308b, 0xe7f047026948c2257437b69c05b03284272ad0e56cd1efb092a9735bba21f248),
  (0xf77c8713496521a96cb34e9d03e937250c181270e3a73e418a56c04acba2ecec, 0x9109fe9640197507ced2c9ba26c1c9a3f2e7aa4c8c9707ad94569183fa7f9f90),
  (0x33f901e0ba44a628b5875720f2fe378f3984403d314e39bb9ae868a9e9adfe1c, 0x6dbd3ddc42dbe79c1e740d9ebebf7fbdae9ec4e69dd1f20bea1125fe3652438c),
  (0xebd4d8f24ff9b211a493b201032f7065f612c478e985903962082aecedd36776, 0x56125c1ac11fd66cacf17ea4afa27e63ea3aadb715ed40053f23a0aaaac4cb32),
  (0xb320c5ca81d9bdf32d6b6bbf3f9d10a0dcca923a483c5c36266344a43794f8dc, 0x183be9a0c3a8c8d6f081bf8599100153933e3b01cef03371620e28ff47b50a95),
  (0xb8df26cccd3c89b278193dd765ec2d4cc6c74630538437954e3ddc5ad6bbe24d, 0xfcd892487c259d1665087294ab0bd37572d8a9577dd3313a98dbe3995a483f8d),
  (0xf58280d3e86beee870fc4dbc7fb102888010080085fe65848a9443d77613aa81, 0x591554cac17646a5a08a1c844160252fdf1204c10de44d7b14fdd82f7c978c38),
  (0x40f9e4bb30599ce70247cdcbd7109bc948d5f09b07957b3c214a37d6a05bd525, 0x68d30a613ee03b93ab556668d43a457700f766cfc3e3f9eec325fa03f46ad2ec),
  (0x1b867e6b92363c6043a8cb346633f683cf5a6477c74806997ddc81ea77b46a08, 0xea7c66d597038b437fc04601cc630e8bcdbcdd632f41450e439211141f60558e),
  (0xcdfcf4d04bb0909e0e459a7c840552e198a8dd124785549a7259b8a504e99fd8, 0x9f97af87b41c8b5296400bd7530c5b7ee643bb83eac997e134a86db253758da7),
  (0x71f3786457e3d924764b9be59a31f35c93e5349049091afd34fc8820fbeee3f9, 0x5c9682db083518a7080f31b133cf0d19a18c9c58ab8ff6e402fb34e0943aa75e),
  (0x97678caad17cf1ab6275da1f020154bb64a842623575b8f0873d4ca6b709c3de, 0x3c5ab10a498dd85c3270962733d8f031dd35b16350fccc088779795f951a95c3),
  (0x30a02b0e7c4ad28899e84d92901b6dfb7de7fedad8622aa3b6c185c341dca566, 0xd5f449eb93d3412bb2be8184cd496733d1319547df89e59fc7c81daa2fd3cf36),
  (0xf91481c00c85e89c86067f722bde501af97974326a1d56467ea41b1b25fe531d, 0x0f9f87694eabfde2ca82114ab4dbe33b1844e1cf02e83cdaca8ee465f8b05bc6),
  (0x9c992a896580c39c40c0ea2f656bdbab63b6359baba402df4936b1c038b27fe2, 0x648d3f954c6bc2fa9c233d7d2d42d99aeb089ca4e0bf49df600e8f152a60aed1),
  (0x4de501a37d6c215e2abd176f0030dbdbf42c0c6a4f64a348dcc383a8e1add3f3, 0x7025a2ca67937d8efb78ac627688dffba77f0ad32496cd594a107c1f4b9a64bc),
  (0xac477cc6e177b917e48606a3d9205735f5b3da477354927cfde8b2d1d1a8f4e7, 0x89b795f8d9f3ec6e9d355e9cfb1f4f86e12572f6cc8b8357fb1f73d2a883239a),
  (0x7ef0e314596f0ee462f77f1f9c6d01401890efd73fedeed527be56f1b54398dc, 0x22c591e52ead66aa66c8d032ae363b394a39801df4866e4f50ca6631cc61dab3),
  (0x8e02fc56c6340ce1e6cfcde8fbf40b662a6c060fd389f357954ba308de02a53e, 0x83660ea0057d780463f835120c8e6fa67b86122ca7b03805e495779573adb4ba),
  (0xd97b8de48c4e98a7ee2caf4daa7c9bc0b6c50beeded5389dbad7910521ba473c, 0xedf7725b703ce7847659af89ac15b3d93898aabf2597815aa9f63e70ab3bbddb),
  (0x36166b447d9ebc744e39187ee2bfd52f04a433758728531025470fabe085116b, 0xfaf71e910476be63f96eacd8c1db15eb726aa817ba79ab5192ad433cfd4b322c),
  (0x92cadc97ad545eb403c6daa5de4199dcb799591829622559dd69a640641fad98, 0xc95f7b8f981dee80690d4c66d05dc59b73e80ce68595409a1028238b256534e4),
  (0x39cf84a9d5fda182640b3d855f0499f5441bd9ddac524dcaf4337014d856ac25, 0x217edeb90aaa2b0f082e74b5423f6b4329e33f0a0ddf186004e7b055b2aa95a0),
  (0xb5b9b9cccf0c0dd5833ff03b1e5f6992c485ee4dbc185d7058b83f3583cbea55, 0x68ca3259ed4307906ed5cee9fbe791c6462e907b6269dafd7caaee8e4e9e8a50),
  (0x560fff176c2589aa9c3230ed19b99b0860294c8a35ef0ac42b72bdf213b5ba88, 0x3c2f315fd080d810d3e7f90745f175d9a373202d9a56f685552b8487d6770374),
  (0x0f684368c472fe9238cd2ec71e9c104cc078f9e20af037b51130e9dd7b9520e8, 0x69cd5168ff0f7e4146f59cf44a9aa2c2b32d33a9396dfe21d3f1b5ed6247e7ef),
  (0x4f0837e69dc30f086d1cbb256d2476c7cf0b0235b4579ebe3f59da0f4b3234da, 0xb89a40600c5f131cde2e645f6e73af10253bb434c761e7d19a4075bb906f6e98),
  (0xbf5d57fcc55a3ca76202c253206348b83d093a5b7405bb47d12840c5b8cc037f, 0x3ef22458132061f6dfbd3d6b552b42ab23ac76235a0a960a89f6c90c8c3bef48),
  (0x581dcee53fb645a2a6ec1de31e74ea4988779360c230f49ed74e9bdac97e6516, 0x89a34fc5e4d97e6754cde50ed2743a426d2dddfcd137d13bbaef23918f483f14),
  (0xb8653ffd233bea04854bcf7701982805a80540b8a7f0b2ca13f1f5b312e08ce5, 0xb59b30e0def0abea061a9d90930c14e52675261f9acb170a8e7b878702b0b4c9),
  (0xbaee5ef01fade16fb8d5de90f13e27e0b6f4a3f90bce132b1dc19ea60200ec7d, 0x9d4f59c775ff7d390dcffe87efd550c6ab4cfe06d13698156f406aaae4c6cf38),
  (0xc32363a6b02b6e77ce90f71fca6006e1812399a4b1877749b02553b151deb6ad, 0x8b6f7d02818b2bb02576c7e5b909d94a86c81e31a7e1ae6102284fbedc36c64d),
  (0xbd56d3696dd50614d784eeda7bc73061a3790e6c9305bb54eca3ed0756faa38a, 0xc8c3976824f43f16814305c106ab4fe6dcca8f474595ec28d6575949229a8aa9),
  (0x79ebbecd1c295954f8afdab790f1632b995c6493920d93bbe2a45f36523f2b36, 0xf7d928a5b1db83fcd91f098bbc01193e67216a7b5f88e998c7bb3ddb79592f48),
  (0xb011b6ac0755ff44cbc9d64806b13bde2a91113e2981a93455e38417e991f600, 0x5764306727bc966f5acae1af382e65de522d2d31c2f5930a6f4cb518045ec613),
  (0xd75b4a20bf31795d785c3d7d96c6dfc7f0f32f473be8858e5e12705d1c7193f0, 0x17387e1e79f2f5854515708fce52129de596ea3444f0378f91acf17b342659d4),
  (0x6cca31c738abf413009e75be1d94066a1ae052233e2af23972cfd2e949dee168, 0x27da93fcebffab28eb6cc5f7946f83ac4a9b4a8cf5e2bc1eb50bd61d9bc49908),
  (0x45f1bfebc9627e107a64cf207af330048de49deda83c15f4ea314c964821c8c5, 0x9087cda980f20b8ce54a37cac2035d8e5e4fdc3ca95c0b33878b062654b9df60),
  (0x49a7b85316e4f4a248821948346f3705766f287ade8cfdf836f61c238319ade4, 0x12971e27688a208ec0b7d55401f68f958f5628158db2a815b9b3f8a75cedadfd),
  (0xe2ad741bdc1582407213cf9f0c95284d20824de21222718cc9f8b696d0ff34fc, 0xa78a169f52fcd2fbf6c74ee0dfc98af016ff479bd84412b30ee3a6df54043ccf),
  (0xde50644f5bedc01d7581fcb46624759f1d33e85849e117a5d8ae874699c930e9, 0xd249ef8350f55b7986b9d8c6270b01db672d66acbc73e75fbeec5d00caf3155e),
  (0x94b29cdd51ef6bf04e05df0557dfcfe9cc4e4542754b00a16131d6d473978fe3, 0x4d2de14c660eb0390faf7d5fc8eb0b488ac236fdd3da65f3e4530cff9bc7edf2),
  (0x04d1f3d3a116d9449c037a5dd7979c5910a2d0d6da3289abc006bba760430e54, 0x2c80b505774eebdfe968dba547a5899528e25b38c883cabb9ff224738a0983cd),
  (0x9d37c5b0dbef53166fe4b64161d5e722502e223f1642e7f6ee763b714a953beb, 0x3016a8604fd9f7f627d7faecffceccc2139850e675a727890115ed70f8330bc7),
  (0x3e658aed8f4330170ced1fc51fc7525658a2d790279d7b51c492ec644cd8f64c, 0x6473ffeef6b01b6e7c311cd1742e7f87ba3d60a30ddc37220b61942e05da59eb)]

/-- precomp.rs, "1G..64G << 196". -/
def row28 : List (Nat × Nat) := [
  (0xf99ee565f1f344fb19f63e6315aaf9bdf079ffe1227b91d38303604f692ac542, 0x713889ee0faf8b1b1065118f3c74d9048c883bc6d48ce41c8a1d661fd6219199),
  (0xdeee0c0dc7f3985be2d0f1cc28c4f5f74f3ce145ce2764a0972b3f8f81a1b3be, 0x527729a6422ad600440ebc9361cf5a5840619820c467a0807df4adc0d39e25c3),
  (0xf1ad9199bac4a026b1715e1519d9ae0a1a2eab854d2026dcca6c0937b1b76ba6, 0xf314874e25bd27318932e5ff2d6d08abedf5496f3ed9eb8935b3dfb807ea7b0e),
  (0xb747ea0b3698a0d049f0fbc53bc0dc4d1d1c94f88d44fc79efb26a753f73f449, 0x6c10697d95d6e668fac859b8d1acc51635b804b543c129d65218c3fe228d291e),
  (0x6a8f24392c9d46ee203cc2ecb10934cb45f0c30783d2f383c38e438f0876fd4e, 0x64426efd8315244ab9c8cf8f4e3484d741e2cd1827e76a6ff16b431b65ccde7b),
  (0xfd32fba415490ffa919c384004113cef34c8cdbfdad6a0b01c0a8e44fc94dea3, 0x53173f96f0a41ac99e6d1d63ca1fc1c0fef01b0383588baf58d190f6795dcfb7),
  (0xc731021bb91e17452d51e60e446ef7bf2fb310148cf9b9fc2b1d402aba16f73b, 0x751f55a5974c283a70f5f514bbea9af74bca48b6fac5c1ea9d3b47244fee99d4),
  (0xb8949a4ff4b0ef5bb0b3e508933548d931ee696550f306506e30251acb452fdb, 0x17a12f75e72eb0c5ed6515fd44d4df03ab147c30db1d9989208b83263c88f3bd),
  (0x9b70130ba327f90cfe3341f77a070d8e1219eee956670c183b59796d36cf69db, 0x87bfbcdf4c762293251b5817c62eb0d42021a62346c0a63836a324620ae18e0e),
  (0x9c923aa5ea7d52d5a653ce6f161475158c7a53fcc8c18857f78ab505cdd61d64, 0x5555917e240da58259264afffdd1d4c47d53bec873b3cc74c24709cb5c18871f),
  (0x49ea61f173ff0b5cae5796857677afc31910eaba3bbfbbe1cae8bbda548f5a0e, 0x14b491b0b5cf69a868f1e1e5df779ab995d337cd20c68eef786554784f7c3922),
  (0x4f450137b454921f7f47eda5697e5140e7e1fee4c5aac0eb7a6cbbe028e3fe89, 0x4251437de8101739aee4fd7cdd5e6de474be0ba1cdb2e583db625f8495cd8185),
  (0x84e39da391a5c10c6e8b44e7a1eb75b94be3fb9cb6d59344686d72a0ac620366, 0x25627d14231182ba9b6887831190a2d8029519432c2ade8237cc1490b38f0409),
  (0x7f637e4f53ede0e0d147142e5c8748c91405aaa7cf9c73256eb550aa658a6d87, 0x7f15b3730a4a465517158c23bf8f93fce58fb1bdbafb6791f8ca277614ffad2c),
  (0x68d69d54d8befcf65bb09cbe6700be14a71e43913ed9630539d4add2d842ca72, 0xe7ac7bddd6d1e3cdcf887baabf12525b7152b7bb3370dff7a45f536737183bcf),
  (0x932811a718b06350b90bc03fcc054de5cf638f560d2cf6ab25914f7881fdad90, 0x0dd099bebf8990c1801bb9e0a851d26676108a6fb40449742f00b3309bbd11ff),
  (0x6c23f82986529b7884951ff48d3073050fe9dd2a50d59c2758c5aaaaabe32986, 0x89a25a17efdde8da6f00a4b9c0bb4da67e2174de77a2099650bb22180b136a79),
  (0x3ca5bdc123f66d77189a83c802ec893cf900553ae5f10dfbf728a27ec11ee01d, 0x1b715a6d2c460449346042d9323c69b359c50ab3102562309878153797eada9f),
  (0xeadfe0ae8700e27e0f395f7456b25a20cdd7888e9d42e25fa41dd4766ae06e0b, 0x77e4b0dd035faec2b8235a9467df886a3525d9cb327f8d40b09d52a969950093),
  (0xb16105880b87de836870ddc7cdc6fc6777fe34336c2df683115eb20a517d7061, 0x26327dec4f6b904c0731ed3ac1e6c894b3164f1c3d754be2343584cad9c4ddbe),
  (0x8aeebb5c7a678804c66350edd9ded7fe40835daeb5eceecd9d49c6de97b5cd32, 0xc48990ac875a66f440d7511a2ef4400ed7a17bdd8e3ca11851d42fb75b8ee9ec),
  (0xeb1913134a2d89ec56918786916e51dcbee755562a39e0518de07d2a2199e347, 0xaa33a79a59021493e54b7ee7d7492dba434fbb4156d51c2b6679610d37d341ed),
  (0x231af02f2d28323b8acc90854942d3a609540f045ab551d049fc5054e4bd6d3d, 0xcc8be792e805ec0027578da5be8c268c1fef8e71888e3bb493458cac0992c163),
  (0xca5e00b22ddb895322d886c08c0b93b8ebff429d58c1fd3b29267baec61c3855, 0x917430688049a2cf6ddaa6bd3c0fbd54d49ac6fa819c01f6cf330117c3fed8b7),
  (0x2db067bf3d09932881d050441b2aa892c3654d352818ae80d67f981eaff2ef81, 0x47c60de3876f1b61cdf119a6e39a7a5ce66f9b37e133e215e7c79e86703dcc97),
  (0x5ee790cf734e44973f23619ec9b6bcbd3e9a1dbcf5ed4d4a6e405939d860f1b2, 0xe5613244cc987ea44619aa2bcb8e378c02cedda74ca295f0f0a834b15bdaf9bb),
  (0x29176f1bcba26d563832878089cac3f54a2793ad0a6c21ce0bc022cc76b23a50, 0x5438b216516a09bb2ca9c4d357e3040286e9bca98bdc658e062961874f6f59eb),
  (0xb5ab800d05ee696142c099c898b1a63337a3ce640547b9bf0a6a063c7672765a, 0xaed043631ba7138c36d9a649a596210abaee615746201063f1963f5911a5acd6),
  (0x52ace7a0114fe7eb7ab67c8909dc6bb55586960ef3806be9cf817d1ca4a82b76, 0x1afe4322948a326490af14ca6dbde1334f06fd5a604ca5e1cd987618cbbc9b70),
  (0x49b42e684c8126a0310f64dc2e696377ab7267990ef87dfea70d2ca6c44b2c6c, 0x0d2878a8d8669d33f3e674ebbbba9dcb53a8ddf7cb2691820ea444c3cea0b176),
  (0x9803fc2119ebfd78a1912d165b57c111bb5cf88e406f1e4604b935d5d019b6a3, 0x046959156087ec9083a9457d8ee6c9ded93286eeb75bd0554f231c9ec07764a9),
  (0x12ede0e226a177e5c1305047f81bc3289cb633b58e6634d214c6dd8a58d6cd46, 0x99e66e58e7598b14741eb1870f47ed1cc3a47ecd67be487b332cca62065a6f4f),
  (0x3ff6ea20f2cac0c0f72917b17cad7b47e5efc784b610a05f6f0544ca63d0ff12, 0xeb88bb8c1023516d682cda1d694bdaad7dac70b1d7d93565cc23791bf21db8b7),
  (0xed9e8a3f052b18b21045a368e652482122f5ca72b4ee4deac4c634b4dfdbeb1b, 0x561bd7114db55f1d350d875422507a6d7fee2ec17b0096709b7f2cb1b961f49a),
  (0xf0ba9d028907583c6af1b00e0fa8f128568434cfdf1de48c4c189ccc320bbcaf, 0xd8117623013fa8adf2230f1642c74cef3dd8e4b6c25dcf33735a400432ff9f60),
  (0xb7df2c9fc82fdbcdc3fc7e65462257188a6811cc11d6258936822876f51fe76e, 0xb47ed446fd2e967505e4d793efa91148b695947847a2e4143b1d4e52dd7b205b),
  (0xbc5213082954746fb1a16966b01ee461661e28811b7930481a7098b904c9d9bf, 0x6d465b1883958f97a85be7ec53294905d80bb41c7dbd51efc909a0fc2477de50),
  (0x22885739266dec4baf83d30fccb5b4f8faaeb2143401e6c816f6f330fb6840fd, 0xeb394daef2734cd9dfcb66140fea14a6926562e3d842d27a51b4367c7bc467df),
  (0x14b74cc6a75a04da191086bce52bce1cb1e6ed11814e81653eeae5d211c0be98, 0xecbac447d8fec61d4e433b8bce0942ca071047de2dbd7f7c63cf11868c060985),
  (0x73ca7820e42e0c11ad9ab43375b55fdbfff80f9ec52a2edd8f0ed0e2ebf3232f, 0x2f24a9398d48bdfb3438cd77095da19a89bc6b5c4c0d932d6dace0a0e6251b46),
  (0x927c1c2dcb13600006a47cb1638e1865736600e60ed0322a99b47e46766561b7, 0x6cdd99871be95c27c5f0043c6aefdb2799b37c0209d649a9295423370cc5df69),
  (0x8427440843a451933a05e778af39aead299c40ac0983efa469850931390420d2, 0xc51fddc7330d7067b49302b4da3c6ed6461592c89f52ab176bcd0fb991a711a0),
  (0x1bcde201d0d074495305151e404bdc89521b840da6a7b9da94babeb6da50d531, 0x8e61d34cbf172943ebd314bebf91ed1cf84841ce07791a1bf427a78b3b76a59a),
  (0x3e7ba65df6acca9f9d9f345ed5bf610db186ee41fc9d9e541d5dc4515541b892, 0x76f4ce30afa621045afb2033d6481bc309f9dab78eb5ba539dda787aa8369486),
  (0x2ff862f1bc21490344339ed7a338999889ab5143461dafc2a8fa00cff4f066b5, 0xe1743d0936a5acdc7d6a4176edc637eacd96058e3467081e2c88f985b05556e3),
  (0xed1e0147767c3e229fbd3bde45f4aa79f7fa264e1481a03766fd72e27eb37726, 0xa0ad13ce414ee94ee69b155e6137bf3a19eedc7245f633f87621f97982e7abe2),
  (0x245446debd444f39e7af17974ab27ecaab1a6e2a02ce227e93e3d5241c0e651a, 0xa75841e547406edf10834ccb67fd094643deafcef427549859e22a2156c07613),
  (0x1e4bf8889ac05f3a2516c09676f5492ba6e37b0d78f5e0d7ebd6a6777b0ac93d, 0x429438c45198b00e8a30333382acac20935d5cfd5062341bcdb42ce04df0ba2b),
  (0x62e6bead1798aac8ac3e2db867a1d6a358b82dda946f67ff1d083bc9049d33fa, 0x06a933d8e0790c0c23557927837b35eca7f6937969c8d7befc85980fde46c58c),
  (0xcca3f4494aac53ef595308741d9cb54f53977798bb26e680827c0e9b077ff55d, 0xc93eed824540617e549680d313e5da72c138bccffd6400c811dc5c87a07eda0f),
  (0x09915109f1e4f2010639605c817b2c169716eb426386075bfd3db1574d0b75c0, 0xc3c7b8c62a1a501ceb9f7d20630480c4b25f7d1a3505c90035c9a9285cca6c3b),
  (0xe8f732f7396ec191b9b18b90c27f62a6fdb118fa9dd255f03f99183c5a1f8e24, 0x032a76c60510ba899b53d4d69725f6945d32adef0ac5a0f5524a2d910be786ab),
  (0x7ceb151ae394cb12d24bae7a256cb8b344b7b88c3ed73ac3840391a3ebeb1544, 0xee9e1a3d5f1dccfe270644ed7d937589ec70cecb090f07bfbd6b66d05bc1e6a8),
  (0x5a22d40cded18936f676eced85148cb9da429a212556ed40b0d40a84745b98d2, 0xa9c0bb31e1845531f23f2c0c1a0bd47ebfd1445b9eae03793bc4b9e570e8a4ce),
  (0x08653ca7055b1f15ce55a2367f484accbdfaad792c15ef449ddc4d600a4c3f6b, 0x9be1fdf692dd71b707afab66ade332ba09299e5dace1c7e72efa8724538873a3),
  (0xd4957d29105e690cb63ef6f4523794470b852893c8654f40a49b5d595758b11c, 0x1e1c260ff86fda9bee406cb834ce54a9f4a8273c49788a8e7d484363646559b0),
  (0xc6133b918ad6aa471e6ff110c5a9c15b1fa3b6a31b488772e150e228cf6a4a81, 0xfceecdb5a5172a07f969f4e07732b52fba1d1c1d5f3965f28ac5d55c9dffa978),
  (0xd9e1cce5d3f1bbd54d47a491f8f9c213c83a6cdf5c4c2f63b0120a5f10f2b8f5, 0x1121696915a7925e05efa800374618e5fcdc74c8dfd1a2db0d91bc7caba7e372),
  (0xd1acfdfc113c978b6523bc5a6dcd1396880d5e84eff14423d4c89823f6021c5d, 0xf5ab896146b78699c29ad4a6a638e8ecf7f4301e72b58459b0c164e8bbb66840),
  (0x55b6c3c5534517772e597b42d985232e0121de8864f9d2c69dbd79740e954750, 0x2f3e226335fb0c085a473176e081791af134019f8428600dbb53e547519cb9fb),
  (0x662246de6188045e054cc292b650dc39ccd210767721ef9ab28c301773d273b0, 0x2b651688d849ff22886b43cd899725e4a72df26797e9cd46904b52fa6b83c0d1),
  (0x188043d7efe1495fb4bb7581a8537c785e354c140c77c14860479b7902f34533, 0x140c9ad69bbdafefbdba7b8baa57c4502e0c8a2693d4aaab9ba12f428c1d5026),
  (0x2ce3f19233bd5e9114829111a4b04824f7b1295b04d1fbf32067aa4225ac0f18, 0xb8e821b8e0547a6e497ca7b4d4be9554fe932286302aa2439c7a1d558f2e1b72),
  (0x6aebfa3fd958444b9131137396c1c2c505891db94084c44bfb2838be67e573e0, 0x9fd835daff97cf4d2e10c7efb61fe8eb7148ced32caa46d0ac9cdce9e56e55c1)]

/-- precomp.rs, "1G..64G << 203". -/
def row29 : List (Nat × Nat) := [
  (0xc9d7b51be0f466fad5940332e540b015fb9780d78c935828a36da109081e9387, 0x19d99719f90f462b066a7833ed201e5fba6c1e28b1a2ac17faadcd41d6d9f671),
  (0x9a38783e41bcf1ff348dca6c47e1bf65a56f46b47bd057c2f431f462060b5f61, 0xfa0edc3ec687d733ca87314d2d29d1875a7799872e0aeaf67a5d33a9da710718),
  (0xdf3796720b88a538292148714ca0cf52de89e44dc1350e359df336216a31e09b, 0x1697c8bf5efe7a80f67db604e5287f7779aa87d7585b447bc92a510a2591d61b),
  (0x3c351b87009834e62da964ef9b200678a884a93d0f2646651c894849cb198ac7, 0x8ba6f9e242a194e2b84805210b02264a580f6c473326790cafb2ef9fe2c4b44b),
  (0x53c99a73a62fe996834116d2b74a085a3516078827c3ead3fc87975f8fb54738, 0x39a45982585206d476a4fafda84d19a7925bafa8be0852b787585be05b81c51b),
  (0xe43775086d42819fa86b5b9c6e3a80d2f19b795472bc3fde499b6ab65eb03c0e, 0xea6a2474e6e92ffda8ccc9067ad834f675eb14fcb132075fc1663650bb3ee8a3),
  (0x358b5fe2e94e742cb9114bfda5e23221cb84e101408c07dd9d72fd950f8d6758, 0x63e86e78af8d63c79d55cd67bd1b9b66f01554513d73f3d61c0577ec95f40e75),
  (0x879fb23b5e5fcb111d2e6970e73e698404b261bee4b76d7139d934abd3c095f1, 0x7f0ac52f798232a743201d82bf5e70073a97d08561bcf1c111506c72dfd75490),
  (0xc3c66b46d53eb514f80247c89ef5fd5d8d6c752c9e570e292715cbc46eb564d4, 0x38ac0b77663a9c19ae7b4c607e4fc942ce62c06fc6c603b59666b4010f87de56),
  (0xe62d8c514acb6b161221aef670e081288b63bf12356a4613cb4d20ee4b049136, 0xc4ac02443cd16e7ef077bd983841ba6ab25237a2cafd7fa571f64a67379e7896),
  (0x8eff66bec52c459a09d8d71ff4685fafd36d0817f3dfdac1548ba86921fea4ca, 0x669fb9dca51054ba5107331fc0fcdcb0ee3c39b10106712b182faee70b57235e),
  (0x0e008c5bbfd371fa51c1c9b90261b344b02931290a982feeb25101fb319d7682, 0x1d3a1aada3521836e5cfb7796013a2cf666f76a6e5aa53b1d866dd1c0278ca33),
  (0x1a418ea91c2f695addbccfc92a11667dc8ee6c4fc0a76878cedd253173faa485, 0xd1e3de0f303431af9a44f3f4e73e03193e4b3c82da2ed89fdb11bd9251f73971),
  (0xd0ffc172ccb86d7b0ef074dd3c9a11181d8eddf37e752b223c5604ff50f75f9c, 0x902aac66334879a0422f93287e4c6dafe3f307d66055856cabd1ece3037d90f2),
  (0xf81be1b9a5928405662ad24da2fb63f86c97e1ed7fc6d634b6a1e7bf94cdfade, 0xe49a602ae37cf24ea28838e0b17fc76cbecc2e0e8fa0db6586d765e4d14b4206),
  (0x5709def871bbe8319587bd39031eebddaf3c305ae5f6e70b76b4131a567193ec, 0x2f431d23be1c83ab838a7da80364ac164d80ce1b875b7029570599830eb2b669),
  (0x2bead64594d8c63ef3ae606104e8305cb448d01f9b4b0d77e56812a6f9294dd3, 0x2041af6221c6cf8bedcc5f18ef55bd85537b983ff7a9dee50a85434d84fd8b07),
  (0x33d2646d2995862094350492301b1dc3211935a9db5f4b3a8e52874cb940c71e, 0x43929f2c4bd0b42820f200eb4a352c789d1f25ea9a3c5ef416b0d64bef911404),
  (0x51b0310c3dc8c9bfaaa97cbd9ee0cd6e7992c2f09391be48a5656667c7196e29, 0x0d6e5a5a42fe474f8d5d85f58c416388bb1d81a1b585d584237f8acfdd9f22cb),
  (0x4d04e18917afdd4d8378660c3f175bc81c62bd67496e3298e781276638235d4e, 0x5f0e6f4e98a0403be8a65b86c70d8a3bdb58e4e192b29a8532a8160185a8068c),
  (0x7d487b8043a90c873a5ce9487c9c5b0534dc30bd0871ee260812968469ed2370, 0x98c4e13a6e1ae5921c3e105898747ba545f80191b40418114089ba37dd0e7179),
  (0x43ff120d2744a4aa6f431263aa8aec05711db87cc33a1043d44636e6e82c9f9e, 0xcc63a68244929a72ca5f7fe6f1c5b1bcf0fe0cc98cdc9f82d3bd892fae77779b),
  (0x17fcd27a638b30ba8ab8924b0ae50c302f3585ad6b5c73c2c7eaba0c09dbe19a, 0xaec3df2ad707d64215dac49f946a624209c107d22a9accf1af414d3410b3d5a5),
  (0x3eb585fbc4f012947cb740d28f53cad0f59df3e5b75f18ce2c2492b73f894ae0, 0xef187575688899494ee23fb5f67c51d2eb8c795baf943f4c17da0c8632c7f717),
  (0x6f678f4cc72f08cd3a63782b55743082c4ecd258ea577d03a6b4bdb20389168b, 0x86b6c516c05712aa37de3e29a037c14cd53b4e3ed402c0cd553511cf65e58dd8),
  (0x0e54523f8f8142db292d238c61dd37f8be012c52ea636be82834da3eb38dff6f, 0xc8e19b0dff9eb33b3fd2fe0f50821ddf83e3cdff1e93c0ffe31eb436036a05d8),
  (0xca39687f1bd410eb82090b4bcaeca000ad0090d4d4342d75c8cc943fb569a5fe, 0xe5efb774bed76108d87f62e8b241545139d782189c964999e7bb0df765959d77),
  (0x863dec3db7e76becbb315b3550c6820fbc647ad15a8704f83ea011a4e822f0d0, 0xf63dde647f5e3d0f067fca370bbd0d3b20054439976b822901ff5d3af017bfc7),
  (0xb22380295f06cd2980aea0b13503793dafbff0fe96f8278a22dbefb32a4c94e9, 0xd2e8a435c59f0f1ea0b751eb7c6734c406c38314393e705365703e578ec3feca),
  (0xc66826ffcf196558a16fda8ee6c6755c2f4dd31e972072df147d90525e9ca895, 0xa50bf753b3c85effe190830966390e0ea9d604e083c3097b1f1a76a30cf43895),
  (0x090b3defdff76c4e37fcf704a4d08762548b801b3c6ab16a0696bddef6a70251, 0x49b0f6c54fb0c82df85395f40ad9fbf544a90744995ece4387e8cb8969cb9158),
  (0xf37dccb28ea7fd438c39e444249bc17e81a3e5d6dfa1e1b075d9bc15adf7cccf, 0xd09fa4f64a9395bf0564cfc66283a6c535daa6da4a372904da654873907fba12),
  (0x2f979bec6a0a9c12797b9a3c61c2faa6d913f1cec7bfbfb4688e9ec9aeb19a36, 0x3f2edcda9373a39cfd6b000810fab870ebcf523d079b0460b5969d0f359679ec),
  (0xc1f3e3236973dee8f418ade1260b5bd5f848c27c02f8898c0d64f9a76f568431, 0xb519b636b0035f48427965f2247f9d576d85b7d8546f0ac446e9319c26c185dd),
  (0x5f6557c2873e77f94ac39cde3177387bff9f58c339caaa116b6163a9ab87d59c, 0x7ea096441128c316f34283deb08c79409b1c96ca75ef196c6750400636a83041),
  (0x0e20be26c1303c01a8ce31fd9e4c4b9f59b43da29f8e4d8cb510b3b56aa39dff, 0x429808ba8836d5727a520e4da1e14ff6d9687cdb7db9810118187182e8ee47c9),
  (0x9aa219cf29d93250e4e3e76e9e36e3b1f901f7a9a3f91ae5a37ca60d4944b663, 0xb598dee2cf8c6bbe9669d396699fc3eda4d643d9de65d95c347fe275056a2512),
  (0x5ef8428cab0009c817faaade772bea444e0d3c72caa9fc95682ac1e5dda9e5c6, 0x6e342afa36256e2844c678480223aad2da6d12bf725281cbcc4ce47a460ff016),
  (0x7d33b92e7be4ef517251adeb0dac46b762b1bc9bdd10bd961400bb0b93a37c04, 0x5ef80e1eb28ca00536d6d062330d8d374b2be13f0642223328b2a94be61fa29a),
  (0x9d96dd288d2d997a77705a94154e490d9fc4ff6a628bf217174d46996d16768e, 0x1386b3c2030ff28b02aa513679e4a03e9d06c5a4c11c714f77e2d9d8ce5d72c4),
  (0xf7d17dbfdf762761eec7c3513a4d36227df203e5f3abc3fbfe82e8a6fb283f61, 0xa56d9dcfbe4e2f3aca9fcb63bf1dcc14de3012db8fa748dbc3956e44522055f0),
  (0xfff42bc507b10e12c46b45eac0d292817cf24df9680b9f06b86186b68bcec9c2, 0xb4c5f529300feb2011f97010d040800c3d5f1899b4848ec412263c404d289427),
  (0x09c75b68950d4ae9aa5e0036882692e1e96af739c7c2f05ecc543f8fde94fdcb, 0x718c7501525b666b2a19343fb5e696312658252ede0979ad62f63df2b5932a7a),
  (0x46ba6d4750fa72ed25c36c7b3270f04adc84ad22aecc018f26a42d69ea40dc3a, 0x2c417d367126d038c3be4263cb6e86daa2394731120c088c6c37d1c593e58a8e),
  (0xe56f1bd9a31203c2d3ced3c6b539c92b671a2faa377185365b70f9c58b6f8efa, 0x5d267e66205868432465c6eb179437942deae43243491cea8b096ec49ff3c8eb),
  (0x30009e491c1f8dd68fc84d87bb961579ae07a67fc18962109d3d116db07159d0, 0x57b796c30ded67a258103a44205dd687cffa197cf23ab4ff8a8caf22e3132819),
  (0x919596958ebeb52e2ea293153db4a57ea33cfe2e357c09c50b9c3a6ca1779ad7, 0x24f291ca165c1035dd99048455ec806b8e996df46295c8d6118db9a6e546c879),
  (0x6136d7f1dc5968d3af3adf343e11ec39324673a273ef4d04cca523bb440e2229, 0x061d7940c53385ea8549b9c802779cd93eaa2661ae067ecd7a7b2899b053a927),
  (0x93f675677f4fa0edb966b668591a9e4d4ba6de53b27008433e0ba883f06d18bd, 0xd2d4d4f7bb7564f755af10f570f73d8cbc041e2fe794608e5a02711b4347237b),
  (0xb533837e8af76754b29e68a0255b218af7b5a8755d3a2c1bd7d27a89b3e93ce7, 0x2972a7c4f520274eb2369274445e9115b41055a1ecd74385d1b05a73579fab2e),
  (0x2fd1823a21c8f7723cfe11b852ccb69a4e4160f099b057ed6c08334ef678e68a, 0x7c3930ba9208d850e549e0195bb4d0418c0566f9fec74a6edf7f072f3298f055),
  (0xc58d3c48375bc2f7a6453f94813f9ffd539ad799e4f69ad3e07141fcaaa2902b, 0x4ceb97671211b8a01d1b0903aca1e7a93aafcaa9b240e354b3326fad5dc64e96),
  (0x7fde3ee21eabae1bd5b42ab62eb9b4944c32892eae907badeca83e49e32a858e, 0x90793aac67476843928a06502003e2c0bfb028bee5f5d5d513b5ab09caf54957),
  (0x09ee5f4326d7b80c72a2bc564bcf6d0c557e4a3627ccadd45e942e79c81710a0, 0xb606bdf66ae10040c23db0f735fbb42a56f74c2663f16b186b70dbe9d4292f19),
  (0x0b1ef85ca716ce8c97af9a33c60df6f77dc3cf86556b0ba41eb15d4d044573ac, 0xeaaf7c173547365c2d7f667ceaa000617c32fa94356909632922f884c96958be),
  (0x55faa9c8673d41b407818df45d04ef23c54f3d835e2c79e01eb4de4687032d58, 0xdb53e0cc6685a5bf5fdb9bd2050ebad34860d2eab7415c84ced64f6f89b95355),
  (0x94603695287e70652303ebab9f555c10dd87f3106accff17b830c0319feb6593, 0x62aac5a30047abe57ca237062dba8652508dd9b4eefb0178f88311c32e83358c),
  (0x178ebe5bb2974eea38740f8487052f99d495ab63ae8b14859a61d2a08b1ea7b3, 0xa434879609eb3e75b51a022068f8e9e0b5e4cce3aaf86eea030bbcca5b36d17f),
  (0x255e14b2c89edd22aebfb5ed0f007dd25d7162d76f2aa1edbe592309eef1a752, 0x2c80242dd754e11302b58d6e5128ebb6c5d17e25f05720ffba85e0720303b697),
  (0x194cc7f323ec13319e0ca91c1f66a4d2937afaac1a21459b919fca5fabfae1ca, 0x6c53b008c6bf434c37d60d9be750860abe40ad8d09b59e08ad25143a8aa11690),
  (0x9b70ce225af8cb2222658e365e8fb38bb8bf9da39578ded8b572415d1356eb80, 0x38f8655f675865367c343ea25f3cea8384329f93b81ed2957c00018a829a8180),
  (0xa9bb9dc91dcb3feb084ca591eca9259898744652512321aea661a0d01d3ec517, 0x571bb70ab0e3816107512f371b38846b5ed62a3b610cafdc14c5435578b4c240),
  (0x0e530573943105cd85302ca7ddecfbe53ef8ada6b1a08f98b556b95b2da705d2, 0x97f458ea6ad42da135c8c5b0cd47787563a32fa1f2f3802a60554d5521a9255d),
  (0x68797e91462e4e537027991bbe31139dd30bd0233b71e246832d7080eb6b242d, 0xbd53005e045bb95d25c817684cf7811b82f2c67e42d9b707423fe20a6b4e185a)]

/-- precomp.rs, "1G..64G << 210". -/
def row30 : List (Nat × Nat) := [
  (0x92f4209b66c8cfaef6fde9b3e0c33398db0f05331b044320e5f649be9d8e68fd, 0x6420b560708f7aa514375fb5eac6f1d009aea75fa28ab8dee9d1afcc1a739d4b),
  (0xf82b92198d6f55f274aec08c090524a77e2939247a837e7e9eae499c6254dc41, 0xea3d8c145a6f145fbcd783e8e9b879cb9f17ca17fa2f30e7493c962e1402cec5),
  (0x56d4822a6187b2e0d3e9c4fe7861bb9374f24872dc628aa2dede15e75e0dee6e, 0x00031f8adc7d138fedf69d06c79ef885ca2609692408169eb66417cfc59826f9),
  (0x2e0ace9762e666ef6f6dfaca487c21094482b8316231470e103c46e60ebcf726, 0x0cf8daed9f025d8113dfa63aa57f334b1b1e83f1574944d23246a9d31f8d1f42),
  (0xc3ad49bdbd1516639b65b13ed58c43c5eb053cd4b5e3dd7530d78ea800ee11c1, 0x5143e74d07545d0e29ad4f1b1aabb71e12cf15bd707eae1e99fd8e41b6427990),
  (0xc88690b2ed5529519c078571c673199625f293065876767c30266336c88bdee1, 0x407be2387f8646517628beeb986575d1b0bf8d444e09552d274f2c2d852705b4),
  (0x8bcaced26c26273a0cf35bd85dcc1646e75c35d9860036250e5e3049a639fc6b, 0x5757ac98861dd50617f411cb8a7909c5013dd8971a9e068be22ecf1db5536742),
  (0x54d5ef9b761324beb8d9e392369cebb5defd10b4154de37a85de1f0d1e935abb, 0x6687601502ca3a13a6d7758187d918fdc0a0e3c878c1dde44d6341ba74f17e26),
  (0xc8f053987c86394c853262461b6a835ac433ef1c71f8057ec7313e9cf36658f0, 0x1e4ebf5da4a6e46b93193c46b7b9045bbf5e816203b7b931ff398cdfe983c4a1),
  (0xc792a7ac6713c32d9f662449902fde0529c1191effb3492bf9942a6043a24fe7, 0x6df141ee8310a45609b0de447383591a7e3a0319a21e60e32fd88ad8b737982c),
  (0x401f4836e0b964ceebc1a1603aeee5ac14b2ba0f1198d12eaec1a039e6d6f471, 0x3e8e96708da64d166ef267f629380f183fdb4e49dd8f3f122ee437964fd03f66),
  (0x79432af1e101b1c7996675546aaeb71e112e09a733ae8fdbbc19180c207674f1, 0x416fbbff4a899991a7a76b973ae1158a81392d1f5357753fd5eb558fde2ddec6),
  (0x273c69056e98dfe2bc1a92d93c8568667bc29e48944ddf129e65fdfd0d4a9dcf, 0x8ed3d5056d873a1f42d495a06af75e27606bd8235061c69f69fce418cdfaa6b8),
  (0x060e86489034691bab18827b21c99e03c6c0ffc72b1a4523af5528416ab25b6a, 0x84f435d2fc3a54f5dd71cd793ad0f9e39f4a96cb82f8d10b5207f90f93c7f398),
  (0x18aca1dc741c87c2ff7304f75051b9f0ef42f975a63846734b03c55b8e33787f, 0xdf6c9c741b5a996b11bccfe47537ca16fd823b3d053e732c56f120a72d4bfe80),
  (0x4a995e5db12d8540c38659c3f091d9aa14a23f45c7e3636aee7332c7904fc3fa, 0x716c563ad8d562689ed3dca4bf04e03c56534b17b1eaa99520a53becf3a5598a),
  (0x7bf33521a61d46f3750110990a13f63de4c80c4068a1ff8e27ba77a41d6178e7, 0xb829e75f9b3db4e605a3fd8aa4b3a925810218040fd7ea750aff218e10b365bb),
  (0x8867e8fb2630e38286af502fe9a42ec204a5dc02d52717e36bdc75a54d53e5fb, 0xd7f6fd78c20f708ba3091fba790c2a1254f491f2cb47c98dbf845c6ebec9889b),
  (0x3fa37d170daed061e51d4bb54609ae54d0f996d06852b4d7a569ac30acde5e17, 0xfa99951a42b5a069b75c1a5e6448e1f299a2acbd9efb64f162a8868434b8fb41),
  (0xd64110e3017d82f03ad151792482dda3f4709860da8752476d956e892f3b26e7, 0x12e3c7704f81f5da481a141bcb821bf12b155f582ed02b2414928d2cfad414e4),
  (0x4f6db89c1f8e531ba0d051cc454d88c4110532325bbec894e49c5de59fff8381, 0x17d34d61cb7d8a0a8445016d9474f0a17f5c221558da8ab934fe3fd6ca563a44),
  (0xd4b95e3ce9071a05f9cf3e32c1622c2bcaff2629d52ceefb8e9d39101c474019, 0x221d322adfabda9c853027f468e149401eb6e6a604aadedffbbca61f1594438c),
  (0x6629a6bfb47dc2ddfcb139405e09180ddc7b764db7934dcced8ea9f6b7cb179a, 0x17d3a142cbb605b1f82d68cf930c5f53b1db9d376204441ebfc55e4e9f5a915e),
  (0x1e709afd304df11e6beaba7d7624d7a3dc8de7613845f5e4dd5944ea308780f2, 0x0526074ae0c675744e53af7c5680ca68bf204b3ac8f94b649536437602170456),
  (0x1f57691d9ae93aae3d546d3da325c3e4e6b9fa7a6cd1745a95d8cef8ecd92af6, 0xdc2134f35536f18feda59b125513a327d430093fac063d35e891f3fe9d2e1a33),
  (0x9a626f397efdabed5a23a00bf93572923f68aaee1cab658caa51fe2c5c210286, 0x823bbc15b487a51c3d19827a1e59802cb7a2af7771bbc345fe2b3bf3199d78e3),
  (0x149f321e3758df87addf65c6701f8bd69ac3df65f456c6fb856139f299d0a422, 0xfd02996f8fcea1b3db2fd6ecd5c4d581e17df09831a3312ab1ecf714721b7eba),
  (0x1a45755bd118e52c46f22d6fb882bed0c9f6dc3507c6cadce29fa63e7882f14f, 0x7ca2ca9ef7d75dbffcb0aedd61729b0e7ccbdf32568012c29f2c7c277c4608cf),
  (0x0a91f32aeac329e57f4dfc046288af44e274b92b39f51946f58fecb16f640f62, 0x5ec1cc3327e49d52685d29f6daf91e20719a16400f6884f943ad274bd6aaba31),
  (0x98724aa297a617ad177d23d94dbb8da60e0015e5efbcfdb338f4de963b54a059, 0xfa0642ca73c3c459d2ae8ac8872dc112f9f7a28ac7899a9630f0885bfdb6558e),
  (0xc7e5eeb39a8eddc70ec71cf10eddfd3767cd44501fb5b94a15296981e7dfc8d6, 0x62cf71b8d99e7faaec041fabe1881fe30088f17270b0e35d02ac8e3d81d95028),
  (0xd6539c7d0f87feec94fe9ddd9216cd30309d42ac72e651425043dea7e0f222c2, 0x2331fb467ec283b1ec28c85f280698de72692cf0327fda1003c5a57c432ac7d7),
  (0x25cc064f9e98bfb5b7fe6964875e2fa578709a820a9cc815d34bfa322867e633, 0xa8ecec22f89c8ab669e6f130f04618e25fb5d941531824649eb0151c493a65c5),
  (0x83895cdf8d33f963a47d22f54a8d8eac65fa8cdbb3e1c9e0cd6ac88bb96209bd, 0xbe7f5c643af65b3a2b161fb3a5080a9f10c8350bdaf38232a8adca59b56cd3d1),
  (0x3780dd3a52cc3df7431de7c46a983ec294626cf7121b96af2c75403997403a11, 0x14c61ed65c750981603eb8f9647a2408abe68aad51d299aee28a0e462baf8e3b),
  (0x8a3f8441d4807a3a612c1560f95f2bc85a34889c1337d46e88b34414c53352e7, 0xdc80f9244fd554c23875a98e9a6bc37560cd6e88c3eb00e9680d9e975224da68),
  (0x5dbc7e7a96d7fbf9541bfa144607a458a1e5ea8f254206816c4b34156ac77407, 0x84bc8be8299a0e04d19fa231d7b43fc0039e85ba15ee6df8646a851b31590a47),
  (0xb21c38313670e7b776b6ba049149202a240543828608d4722b9d2936f20df03a, 0x42abde106469695499cc1dfda0fcfb259da47ad378488e71ddd93059d6fdee10),
  (0x886600015b0774d829a7765c6432112cd6e863e4d3e7097214cc15fc17eab9fe, 0xf086431ad8d2281244768151915f437913afbcae8230b8d43729175a2c088eae),
  (0x392167c26f6a494e787abf3afe969d18905fb5f0f8711e0437461955c298b974, 0x900165893913ef46f9c4bb95fd63fdf0f127c7dcb66a262dfc7a0d2d28c511da),
  (0x68dd39e5404aa9a7e49e53a47fb700682f5379bd9fb5ab5274d2a73c11aa600d, 0xc5ff84abfa8966a260c2198b4631a3c4ba0e103be824826bb9b0cf572ecaa9c3),
  (0x7b9042d0bb97efef419062da53ee4f8d1c9bb6dbb5a46d092d6ebe22ac95aff8, 0xb0111674f25afbd5d3a0daa1202f01aa4861d19a6ec8a6c60f87f080830cf6bd),
  (0x1f2bed069eef61ac913ab0dc2485ea9b1369500040671bc56d00d6cf1afb20d9, 0x688a52dfc4e9e4215afb06e96c4f591093415f373271c2de850c82176d799e20),
  (0x4ea472504456936dbe3b0dad7eb0f04f4601303d58f9268b30495ba3e2a9a6db, 0xbe240a566b29c4df9effe3e887fd50ad1ccd8a89eb4337088caf8798d33fd3e7),
  (0x0acada29b4f34c9ca5b00d8fc77baa99f586783ae748616eec4ffd98ca0e7ebd, 0x64fd5e35ebc9e4e0e4dd342d1f4bea411d8e53a539c36c1e36dad67d0fe723ac),
  (0xed2fe3056e9dfa27366c5dc23efd2dd0b5b9ea3d5ed480dd96f01f9057908805, 0x741b924155f5c457264c7bece81f213f11719c09ab502a5d4575e8926e9197e2),
  (0x11f06bceeef930d939b05544b0f5f355f91d70a29fc45b7d78ac7b6849a5f4f4, 0xc3412057c36eda1f9da3ce869e8ee00b04838ee5bacc1d51db84d25d038d05e1),
  (0x1a0f5ab815efeaccdfd2003737359d417468bac3a010a8ffae80b91364d9c2f4, 0xa549d8e113ccb0e8128b99127e2192c74011bcbb6785cff17c25ad2f659d0ce0),
  (0x779ff428706f6566dcd1bc961a4bfdf45680332dbc25cb27805588d8c85438b1, 0xd1d426d92205da36f8ad3c4a953cfdb2f6ce8cf2cc686de78bbee998f059987a),
  (0x9bd0c9b7efa8a7f4ccd05863c8a911843e89360ed75362a8b3c0f13fc781a241, 0x10be4b4b1587e2566a055bf8c467e1e0de5e15f8bcf518fd97ee4d538a912a4b),
  (0xcbe980dd667161758e6a0100d6d47b3cd5518f51ab9c92c1d90c14f2668621c9, 0xcf159767df0a198753730c8b6083d5503b6cb35d99cac73c500d3f10ddd83683),
  (0xb6283e83817f32404294edf733eeac691b528c204f035a9484bfcf5343ad73b3, 0xe3347160c56133bfde269ba5dbdde4deefaf8aa55844ee22c3fdc9590a5f25b1),
  (0x7de20ec8f5618894404c37b10bf22cda090de5dbf3fc1ab5c11842198d9ea9f8, 0xd182de8991493ccb76f08bddf4a938ec6ca4b0ed88342743754c588eecdaecab),
  (0x5cd9daaab407748b088453c05f37663cb3e878db946d8e33d652c53ec8a4186a, 0x09c5d26f6dd7767d78ef35b2e265242447500be8c443ca59a1f5197f586d5e72),
  (0x36363939e71d1278511cb97ca5d1746d0428fd8dcf5ea4597175a79aa74d3f7b, 0x98021fbfd7a5a006a748c0e43e688809b381743960aae782cf2df95510350bf4),
  (0xacaffa78699dc14f2645a68c30fe0343bea1bc150f62b7c29076a70c0e367a98, 0x3b512e73f376356c68d56cadb2c6f3eb0db6407b0d2ead83f4469964457bf9c4),
  (0x07f983c7b0519161b0ae0d120362e5b389ddc0035a5e257de43b0e1ffce10408, 0xb967d1ac11d0dcd5b02588dd6ad0b0b5cff22aed0b4f9513c2e94d155d5231e7),
  (0x07012c7d4006f14f53da71b50ef5cc850062bdbd4c6d19598dac6bc6cf777b6c, 0x195cb26b34af31c9b422efcb4ab8c9d353365f2bc102ed754617f962ac47800d),
  (0x9f81609e4486c2315d16ab3a85527015bd2bdecb9856966c3a926e2905f2c4ce, 0xf241b6f908964e4edc90ebf5e71d79bcbd054690fa1b7d36d8b96b2cda350002),
  (0x05ce69cddc4a1f49b4a9ecec3d139f1fe0f33acbb4bc633c7c8386432fe3cd4c, 0x9b8e2978cee040ca33789fcd46cdfdd345bb71d66f23e0efa19d1b16f5f98aaf),
  (0xcfb4879a7035385c7a2e42c07bb4fbdbba533d247078d5aa9c69b246ae0a6828, 0x5dbf6a3fe52ffe477b21649c3f604edf7e361c6c404fe0818c3dd30b3281705b),
  (0x90e785071e9e6a961863bf16c1b2b7581374e6813511c3d9c41b7c234b54d9bf, 0x90946dbcbd91b8478afde39fcac5d344d74e0bd385e96fe4ab4bf98d5d86f174),
  (0x8f7105714dabfd728e193bd8a1ce5a0b05aae6c5620ac9d8f5b42358fe1a838c, 0x991241f316f4201173c6c30af3b93e6d8c4aeefa040745cf8d8fdd48182caaac),
  (0x3ffdfc7e3c2c0d58b326522418c41671d19857dbee6ddc05a0158eeae457a477, 0x3d15002a14452691a023bf42723bbfc8341b0869df02c3a83a3a525426ee7cda)]

/-- precomp.rs, "1G..64G << 217". -/
def row31 : List (Nat × Nat) := [
  (0x8f6927b04832a96c352f5bc0dcb50c862597655487d4f3da5ef7324c85edfa30, 0x5d0721ec758dc1f7e133cb8da8aa455d6a996f99344b45fad08ee1ba55f2f94c),
  (0xe4cae01d7ff72e215080ccf57df5d837e1331feb70aa725e6ba7a92079e5fb67, 0xbc9578220ddef7a8be75f7cd23ef5a3106ff7cacdf449025d9243ee60412a77d),
  (0x27e0aa7ab4999e82ee1ef1130e16363b5b534d050bbfb6078cf7230cb0ce1c55, 0x0f7d9eefe32e8f281e648d632223df2467920c9091bb6cb0ce1dac2d79362c41),
  (0x9f5fa58faecc2e6d81d63dd54170fc1022951722a63285626943f39afa833834, 0x0137b286ebd093b106a8c1185845e24a11235cea6384ebe0b66c8725e77d9a3b),
  (0x90d262f7fd0ec9f959e99b1162c5a4b8e0f8d3d94381e97cc589e1ce44ace150, 0x8dbdf5919a76fa5f057d776547dcbecb2d04fde7aedc7085fbc854c9283e13c9),
  (0x673c85307c037f2fffa684411b39eca52e1463e7e9f72bc6d01506950de1e578, 0x5c1d160aa60a2fd60fc0c64427b5cef5b08d43e1c9cb78e9d0d6a600747f91da),
  (0xb4669f4580a2e1efd4eb8b7f5cce06ad375f10c4b2eddcd1f98cae5328c8e13b, 0xb92937903f6bb5773923e0951c7e28d35528a4c9e7976d13d593f9d05bbd8699),
  (0x961bbb056379b2400efe5b1a4843b28e6df86468bb1f96aedb567d6ac42bd6d2, 0x804d8810b363fdc980da06cf895fc8d370686c0d328e6e39b6caf5f070a6a26b),
  (0x08584ef7439b86e8625ae8dc97a3c2bf9b0dd1884e615291be22877b207f1670, 0xcc334771102a6db53db0b2175f87b1c126286c402058ee3dde7190a5dcd898ff),
  (0xd725af155a63b4f8d3b6c4483f09cefc97c1c6204cd7535ed99de9542f770fb1, 0xfe079d3b0353a4ae7d6ddb72ec77b7ecdfd374949ae7121f0c95d24fc01e20ec),
  (0x30d6a5c3fccec9ae52d3c6f5ede59b8c9c6b5a43106e5c053066e70a2e6ac8d2, 0x0d131ab8852d3433be12ec8f94de0fde190ff08395c16cededec7c224fc0a9ef),
  (0x9eec7269f9eeff4d30e83ed6d7f4a48594793ed9194061a842ace07e85701291, 0xa32b2c8e2439cfa78fbe54271d506a1e5feca4581e79b9d190acba590c9d8005),
  (0xa6c04224f9f93b9e81760a1b4e8b53f137a2821444a054c61671c17373dd0b4e, 0xef54feb7f2e03c2d38831979b2ab384881bbecd2cda9b99418784b34cf671e3c),
  (0x534698984d0cf71da2d2550a30777176014272474ddc96c5cf197ca7fb8088fa, 0x8e706ac9b5536c162598ad83c8bf2899e9f91dc35af38d9b6ce937b83a2aaac6),
  (0x393ea6c3b4fdaf4ae651ec841f18775c26490cd7124c4afc40dc7495f688dc98, 0x859cacd1cdeef6e046e702da619e14d539fb832b6053e7b51e1f33437f338e0d),
  (0xd1567f748cfaefda9ec673d2f55edde7b8ab48a54cb5f5b763b99ce74462007d, 0x5931de26697d64135e6525e31e6266cb694497cee178f3c246381b6b0887bcec),
  (0x9bd0a120859a91a0c368f784dea0c34db1ae5ed058b73f1287f8df7c0e58d493, 0x37f13e987dc4aee8ea38e0e70aa855933a1cc11e3d1f4d65b00d88b7cc863c68),
  (0xdee1b6162782470dc93470cdc577fcac738e07ce2a36ee2e10d38667bc947bad, 0xf7cdc47dba8a5cd4474d0fd980e07af7d6aa6caee0f186da36a25e672e793d12),
  (0x0236ac0912c9c2777ac9b11023a334e77c789c10493a537f28af6d9dab15247f, 0x642da81aa23960f93639dacad3f0abca098b9c2af13ec4eca7e5bd251d7a5144),
  (0x354417574f43fa3610edc84ff2a46f21fcf30777e287c3857d2e5c054f7269b1, 0xa728edab5cc5a24e65c34c57e9c8352da438d7a616dd587af1327899fd703431),
  (0xf356c2397dd3428b5776fa0ad717d9b30a51a0e8010963efaed78abc42531689, 0xe50964748adab4624cd7a5ffbf4a56a4409597fa3d94491f29903fff8d3a3dac),
  (0xb1c02c16e8d50aed3629f8d7222c5c456401405cd282c9bda97b51265c3427b0, 0x2a43463e6dfccc2e3c33f2a365f1d066226790c76e24552fbea2ed75d9635bc9),
  (0x19f2f36869234eaf277ed6cbde3efc87e7cc608565d5672b8cc3453adb483761, 0xd590dd5f453118c26cfb4715b94ec75e1f1e7c898b6da6e29aaf43175c0b800b),
  (0x7b15d623c3fabb6eb76372412f50363b5420ab39235a145614e49da11f17a34c, 0x44240510f47e3e9ad6583fbf66afe5a45cf5074496b1860aa0ef40b1e274e49c),
  (0xd248c0337dac102a3cb12c613e73dd05f1367499eec8df579925434311b2d595, 0xee8c07a8c8a208f3aa64c9b632e4a1cfbf4288cb23d2af42cf154f13a77739f5),
  (0x289e146257750d3d61096d1c802f63c80f809a3fe91f3a32e10d49996fe8393f, 0x918260474f1b8e8346fca0d856508ac6d5c9c0e2e0993909ed06167e9889feea),
  (0x5a074b4c63beeaa838df8dcc06aa194171bd0072cae6fead4f2c877a9a4a2751, 0xcfb0efdf691136e0aade91c2de8a8415a6ecb49eaabc03bdd6d65934c1cec8ed),
  (0xc3ceb3f50d61a4368923c15c815d06f4a132df880b77463d11af45ee23ab3495, 0x6c0899c98e1d8845b0d7218cd2fef720ea0579741da12179af52291de88fb1da),
  (0x1f5d86d65f8511e47047a3a9f658fb99d60bd74fa1a68a9798157504752ddad7, 0xf571960ad48aab4395bf39e813c9c51069eb2c331abefa7db8a4bc424b5a6d88),
  (0x69b98834d21854ffa041b2bd245e3c83c71b7d2228aaa65b7e8cfbcf704e23c6, 0x0a08f003698ec3681d9ee9dbee68a9b199947aaade7da7cb89d227a3963bfeec),
  (0x0ed489e385b6a937c52f9a6eb7dcf328c8d2d41502cfec26e9ea409478ef2487, 0x9b9784bb8266ea40ffdb748ceadddbe20de59c70edddddb89b94986bbef3366e),
  (0x484e81ad4e7553c2df70e76a91ec3f40b4cd11878d3c06cf142b55021a93507a, 0xc77e27e242f4535a67cc2adcc4192a8eea1c93e5c6ff514a830f87b5272e9d6e),
  (0xbfcc837a0c72dea3784680f309af826b86274ea0cf7b0cd39cdbab36d2b713c5, 0xdf1a38bbfd004f566c7a9a54c91d45b9708aa22863a88002a8bdfe9dd6529b73),
  (0xa3317d149a8dc411054d6d8156ca28302d52cea33723eae72e8c9a26b8bad853, 0xb6bc583400171cf37035c16abfc6e944ed2a153ab55d792ba08662fefd4ddeda),
  (0xb4269d640d17015ea5bb09d8916e6d37fe695a470646b848e27152b383d102b6, 0x0282e5be59d39e319dac57c84c5434a7feef6c5146d26d728d8156a10a1d2285),
  (0x55aaf78c1cddde688136a6aa00570031301baf10bc58824eedfff181721c486d, 0x2dd8c087fd78e6c8ecdf8657b7e52dc33a3bd2748bc25baf2682937159c63952),
  (0xd1dbe32b4ddec758e2c8763a1a80f9d28b4a12815d95499b20553274f5531461, 0xa431531a201bef5b3d133c6ea438f254ba74a95378baa533af12210d30c34169),
  (0x106ae448df3f2da88a8406ffeaa3fdb3ca374f64357fb51515295e22f669d7ec, 0xf10a7d3e7a942d463d0832241c0aed14234645e271ad58858f9b0a9033c8e9a1),
  (0x3d8727963f6d1fa393e97139aad58dddb2bae7ffba84ed987c11deee40d5c9be, 0x2213071363ad9c0b4cbc27c3c06f2b868b89a5fb9a600f72483aca818569ff13),
  (0x3098baf99ab41819da58f990a6946b4318311294ecba9477b5358b1e48ac2840, 0x2ae9e34b58cf78382f0a4c3cbf36a908ab4fc17c146bfd1b66c4c1584198da52),
  (0x710ea88516e840f37c20958ec230793b21e43677974af2b4f411529e3fa11b1f, 0x9722a5d556dd4a1fd955c21fcfe49eb708d5164788405718fc0b21fcc5dc67cf),
  (0xc63703392f4779c1af6b9a338b7c063fc0c21a5d9505ac3ec9ef50e2c861baa5, 0xfef031dd30563aa52b822d33a4854989fe6ffe76795db30c22df99c7638167c3),
  (0x82fcb4193409d133bf04a9e6c9118aecc70312cecc0b76f116b09f82d57c667f, 0x1d8db55321ce5affb05f50dd58e81b52fba07222617b83a31a8ab385ab45d44d),
  (0x2dc5e37343e144ea6db22f587875e7507d8d116dfe36d53e3097b8d4e344a873, 0xb72b8ab773af60e6bdc3bd681fab23d5e9e5f4df6899e6ecc05f32e6e799eb95),
  (0xb8919727c3a77d3942a44b13d7c46f58600016d87bdb871c8db27ae02cecc84a, 0x4c91e765bdf68ea18c747abd98c410721a7401466bd20d39cfc6bbbddafd6088),
  (0x6f287404f0e05149091c7c5fdebbcc7dcf48b729c95879217c95e5ca08819a78, 0xc7e550b4d434f7816ac5047a1d06ebc588ae32a6cfea250ef83b5ac226cd44ec),
  (0xe61b1ca6f14c1dfe1b4dadecf69d39202e4badb11cf915b061ab1cf25c727bd2, 0x4f2e941649e4ebc0cab29ca325ef0e628024e4018045ec3090b479ccbd6bd51f),
  (0x99f80d5516cef65143e06458871812c625cd4b9c0da44f9845eb40ec0ccced58, 0x2f34bb3884b60b91acdb45bc4e07014d138d5117d8665521571340c9ce6dc153),
  (0x6b70ab661693dc879da50174b1c180b2b039288e892ba1e2f44a4fd22ae8921e, 0x0b5629d33f4736e50c890da9512946824581ddef9c80dc417e9babc9e7057481),
  (0xefbfb415d27b6fb6f9a20135045a71a9a42e84ce4e2434692340c79eb06f5b41, 0x3897f9fd51e0b15a53dc7e9ad9ce6f969caedb88aa6c0af825ebea239d33cd6f),
  (0x9f306e8c9fc3ad31265991e0cc58cb3c1aec7ba8e1d490eef51cb1f88e5d788e, 0xd28658010edabb63a19c06e8beea7a23ca9d5043fb476f2e5fed006e5040a0ac),
  (0x8671c6f12ea3a26a87c9e406bbc771222894d8398d8a8ed8db92293f6967469a, 0xbfc913defb1b598fda601dfc899d50cf2e3ce346b1f2bcc7e42df8d6d7de9853),
  (0xedbe9e47783f5d61c3ed8738c104b338192e304f9bbc7b2981c4909fe61f7908, 0xfebd91e8d336e247d8fa3e97322e096eda3e613fc0eb7d8e0c06e9be2db30660),
  (0x93a058cdd8c0d94784631d0fc656b6eaa9e00dfc5eb202108f13ccc4df655a49, 0xe3455bbafc4f5e9ac102c1a5db225f524a3d4e1af394fd5c6846904a67bd3448),
  (0x1381dd533c81bee76c25e1d048b1a416a98185365bb7f7936b36985b4b9ad1ce, 0x941e541d938664e73c1c6fbe7a97c33ac841292639b8944cd2a30d617a4a7620),
  (0xb61e15af63215db1b75f46bf433aa83215fdb83cb90402d5417499e84a34f239, 0x5532773317266026aaba0659a618b6925d541e0c07e816daaabe59d4a127f89a),
  (0xb0309531a06f1146253ff58dc821be01329476506cacb0c9af53a0fc95f57552, 0xae03f65b7fc1e50dcc5b7ffb397e1e53158f27ad26e8dd2259bbbdf505c2e54d),
  (0x87332f3a7ee857de31244af7035561c45ed9deb224640771a9784ebd9c95f0f9, 0x85cb917b2365d678507ed477a9592f4852d910f456a0604909e16e9e2b9e0d88),
  (0x9137a6d902ceb75a50189626b2029db02186a3f1730ea58ff8511c934c8998d1, 0x0ca1b89b75ec3d8d850f71cdbf891aa287c2e93180469f8c2fe17f37748bc82c),
  (0x7737d6fa8e6868f70059c699ddea1f9f893978089a887c28516c43aa5e1cd3cd, 0x3429759f25852a1141b1d322ed923ea536985e55ba052aa76d93746a60f1524b),
  (0x4ac8aaf965610d93d82958ea70ad487d3a238c6662256bbdbeca6ec3092e9f41, 0x590005fbea8ce17da10f5cc66531899d9bf430f29de14bfb3fa101b15e4ccab0),
  (0x00075aacd2de960613e3d9ddc058a2129987b71ad79ac2e3c437912f24544cb6, 0x67813de778a91bc8a7ad663d6bc532a487842be7f54f6c8980ab508b6cac8369),
  (0xe40896bdb01aada7c079e0fbe31915915f3c7cf0c56934d95dcb61cec3427239, 0x23d4708d79fe03d4e94374959287aacc8aeb30c9e74082768d4667910492d25f),
  (0x5f9b71b86158b372c0bda9dff572a182502fbc22fae784548cda9cf2d0c05199, 0x7b6e3e82f796409f7fe1a721c4505a32763027359523032ee0f33a592b82dd07)]

/-- precomp.rs, "1G..64G << 224". -/
def row32 : List (Nat × Nat) := [
  (0x2c41114ce0cdf9438fb7262dac0362d1440b386b8327c0a7e3417bc035d0b34a, 0x20477abf42ff929726d6cdd201e486c9c09b37a867d543622ba5cef1ad95a0b1),
  (0x4a68df703db997b0083a8464806c0605ddc15cf677b092c7a004dcb3292a9287, 0xaa8b9342ad7bc1cca6e6517f41b5f8afa4e63d398ccf7f8c9c134e4505bf7dd0),
  (0x76113c4fc6c89858a75389afbf608d90b99cebb4c3a9ebdf126f35b51e706ad9, 0x33cbb144b2edf9003bdab6056ccc066c7e1022cc63b9130480de8eb097e2b5aa),
  (0xe4e7b4f6778213042c1873efa41ec956e2f7f594d0134a96c41764717af715d2, 0x6657624ce7112651ea6bc755b2ee8fe22b915e6380823d5be5c8ff9788d5374a),
  (0x97e49f52e9604a65daddf340c49c8609c4fdbcf211a6a267157af101dace5aca, 0xcf03603fb11e16d63f38007a0bbbc0dc846e2508326e17f19be8e790937e2ad5),
  (0x8858e1e3a749883d82807f16b7c64047475607d166e0e3abd6f800e07442f1d5, 0xa7cdea3d844423accb72525ac6aa73a41b80e7eb638a1ece5859120b8231ee10),
  (0xd5b9d57a76e95046be5e9c2a5fe36db36db07a5c3d7401925ed0c007f8ae7c38, 0xffe5a100823eb667305e373eff98a658ef11ca8f71b9a35254ac32e78eba20f2),
  (0x6af12778cb36cc575c43b0cc3b39eec5dfd6eb282538fc0e57477b11e51732d2, 0xf59aba7bb49359c36c8d4f9ece826d9c6df92f8c5c221b9b70b0852d06c425ae),
  (0x0eee419498c958a7d6b52f6a2f9b580861a6de5691b307045c8ed8d5da64309d, 0x30847a21561c829102affce3b3b504f583965dfd78bc21becddd9aab771e4caa),
  (0x6c06085b2db11e3d1d35076cf8a1726fe0e4c4e96197b98cd2eb2cf152bfda05, 0xfeea86efbeaedc1e1311ee8b3727536d9d292f830030238c15c0c4d74463ba14),
  (0x7c48ec0b08e92799b6e49e0fe4160289f31d974f80fe2682b9d18cd366131e2e, 0xf80a6ebb3c7ca756db5fe2f5a245474ab34fa0aaebf926f9818111d8d1989aa7),
  (0xef4dca5061cb02b8e20ef2e30564bb5926dfcf21fcaf119ea7f96054afa05dd8, 0x39b58725425cb8364c5b439546d595c88b08d534fd657e86cda7838a65d30672),
  (0x78c318b4cf5234a19b261245cfedce8c404348819cdc03be8ea610593de9abe3, 0xd30ce975b0eda42b9c895c2b27960fb42a77cb75a2c2ff5d510bcf16fde24c99),
  (0x2ac788481bae7d48a227df15bfc633f323c69b9650c0e052fda853931a62cc26, 0x88b8974cce528a43765861d8336e6d8f6c2be919967f807d487878f9187d073d),
  (0x7c76480325a7ec17fc0aba74a3d76ad42ff38037fb6a196109521177ff57d051, 0x9a30e0b22c750fedc82176b48e896c16ea7eacc058ce6bc17532d75f48879bc8),
  (0x26605ecd3f7af64418abc03d1454e41cf926407ce84fa840c37e2c2e421d3aa4, 0x5b337ce7945e1d8cd836edb8040101021edb84f4216b668e242341a6d6a5eabf),
  (0xa3428878fb6488678ce815ea6ffdcbaf2a0ffa2581d89cdfd2075c77c055dc14, 0x3fd61e66b70a7d6701f680c6441e1cb7fa5b5bd6364d3e41277699cf884655fb),
  (0x259455d01dab3a2a8d4dd0db168d4668b30181746fdbff77666ba2dccc78cf66, 0x55deb6c9e6f38f7b527d725d8a303f657714192513adb276f58564c5cde3acec),
  (0xf68f895d9975740df72e3aa7bca02500fa07f50fd8073a00fd5bb657b1fa70fb, 0xa66663c1789544f63d4238917ce47bd301bd721802874842301120605cae2a6a),
  (0x330d7189b184b5448189593f6c2fda32e22924f9fa6295c5864d05d73272d838, 0x00a894fbc8cee8542f4826b8641c833235771c94e5cb1a6379efa62cbde1f714),
  (0x82b9e66d5a033487f4209dd24ecf2f58e857a7c577612601b4b9a39b36194d40, 0x4c57761e04474f6f51dc94c70e3ae43bd2372c9da42377d7c1e36934e4e8b9dd),
  (0x4653a5763c4b6d9fc6c3de5031c68de2369cf3f578053a9adcdacd0a1058a318, 0x57f95f130686709170cefe7cbc65c2835be80aa1b7ab3c741688dd5aaa4e5c97),
  (0x6d4690af53376f631eff674dd7dec966c08ff7c64cbb17e9a39114e24415503b, 0x0d769c04581bbb4415aa28e1edcc40fec436d17ecd57508eff6fe32eea74237b),
  (0x91787c9d96f752d7cbe45ec779438e55d9e116e82ba0f1dec240b6de34eaacda, 0xd14f95d0157fdb2891940675749fb8f3d307b7c85a36e22c897f532bf129ac2f),
  (0x0d063b674e072d92e57f1cc609e4fee28931e98f44a87de1fe51d0296ae55043, 0xa40f65cb3e178d93ecf0fbf24fda97c7e74a736b306aca4670a998b9ed0e4316),
  (0xe497e5c30975205673032b19cfc5cfc3b0c9babbd0c56ae21625360416df4285, 0x0c8f0069dc09e6608fc36243403826ba1ee42419a0b74da112096bb4164bda96),
  (0x8394f37511f7027ba62c4b369cb7bb4605a6aefb92b36a458667e981c27253c9, 0xe753d451f6127eac80c5a66b58f09e68cad88a765b8cc60a747bc79c5f109d0f),
  (0xec362a6ff61c70ab745f848458d6fc7347989fe45289b2b8c44b74a15b0ec6f5, 0x8a56149d9acc9dcaed2c2173f44c35f473a20fc07b63db51070c98a7b3a8ad41),
  (0xf1f4d76a5b3222d30625b8f4a300b0fd360fdeafa413b5ed98f178819ac6e0f4, 0x95570e9a5808d9b988089bb78c68b0958b4ee08d2317fdb59d6f5109587f76b8),
  (0x243ef52d0919276a20c789bd0bafe84b200ea12350bb5a94a395c36f35d33ae7, 0xd8914cb0c3ca4491b72a53b1f8fa76a4b93807afa460d1ec3934c577e23ae233),
  (0xf8f30be231b6dfbdf370fb091a95ec633b2700ac500907d52e1284943fb42622, 0x64d487b0e316107efa366010d9e5eef61fead851cc1323e9f2b2f8d269e55f15),
  (0x0add3db7e18b7a4fa95362ff317af2c503fd344c7e0143f04c076b86d23ddc82, 0xc755e7ec851141eb91351bf292f2e433fbeb49e554a1cc919c673e3f8260e01b),
  (0x345bbb58adcaffc0cb2790e74bc6f9dd0ca07420a26f2b28c9a9513929607745, 0x93f5cdb016f16c492c25f0a7a9e2c75767c24d7c641fcb56c65ea38cbe0f27a2),
  (0xec464751b07c30c3804ce9f3dadeff48d1593635b909b7292ca5a9d7c5ee30a1, 0x51789e12c8a13fd81095561e0bced843f2d6238a6f3d01bc89d65ff39e49af6a),
  (0xfce1ad10af4336d201c889c0cb265da846df9f7de7cbddefd633f929763231df, 0x84deb1248439b7fccdc4aeab1834aabedd431b986da425dc8d110df6fc6a0a7e),
  (0x7e9dd70d7b1566ee55b9d9a5115970149b9247b47947190d8796f1693c2a5998, 0xa6a6e284ba78e8123b11baaf7cc222ae0359ac179bd4c03294ad78f7cbcd5e64),
  (0x473f78efece81ad17eb1db3435399ee9c97bce4a336214918392053f24cea1a0, 0x41a213578f896f6c92096bc993158383e620b880afab62fc41d72fe0f63d3d0d),
  (0xda9e41a0f9eca03dc081b749b1b02e07650acfde9546e0071b5ee2fac7dcfcab, 0x2c591b9fbc5c394085ea52c095fd96a9ca0cd190ea5d8d10013ba727175a54ab),
  (0x9a78a81aa85751d16a10218af5122294fa4c3590fef0059b6fb4d4e42bad4d5f, 0xfcc8b1ef9411939de77a273bca21e1e4fe1242c04997e5b504f20579a98e84e7),
  (0x1700ef746889c3181f7a4afebb6b0e8f1442dbec294b91fee20ea30292d0487a, 0xb0b08ab4a725e10ae8bc2aaba7f6340d3b31d4b669c79ccaf5bbffc370f1fc62),
  (0x1b9ed428b71d752e5aa29f83fbe19a51ba4b30161cf0c56944f05701ae340050, 0xfbf2831944c7de4d112ed5be3ee27b0b616cdfed9e18b75b1666e54eeb4819f5),
  (0x33e7363a93e29a6a5b65bdcd003c4d6e68037e301db7ee78d685ec85e0e60d84, 0x99b9aa500439b8b4fac6edf71d337823d727f85c2faf134b995b3a6108d0756c),
  (0xd0cb319757a006f5b1e4c0e446a9b82d49987295437c4926722eb104e2b4e075, 0x9afaaaa6295f6cab500a114aadbd31aab5c54d8f51f89772f3de0f7dd7808c56),
  (0xf19ed119f780e53b560b02806d09267cfc2a811b9d3935d794705e2104cf667a, 0xcd6d34f5c497bae6155b924368efeebc967b85335caef599f0227c09067b6269),
  (0x70c8e44f17c53f675d65017d70b67a622aeac579a78d7bf91dd8d5d36cceb370, 0x2c4acd03d87499ade24fa29c80fdd315e0fca256e7134907d1fc095086a34d09),
  (0xe4309c3c77b66ca0d88edae35e154897b9cbe1f612e51a51baaf75173b5a9ba6, 0x6270b2a3ecbc955bdf86e2cad9499a5385fc37baa36401fff5555805f67f3746),
  (0x0b87878a8702740a2a3db3ff4ab03f7304d85977fe7b2df1afae64f5974ad33b, 0x3a86f69363a9b78ef7ebab3ddb155018c25430cea32a19016d263f015a061732),
  (0xc74a9e862b290df3d52f4cc98562baa5470f07fea164349c349ae368da9f3804, 0xca3d7f0fc42ac82dbec2dd0081dcd44d239446beb8194511d3a1aa3543471a24),
  (0x7052b13ddbfd1511f5969d8a19ad5c42bb6d3e804549daf21f3db085fdaf4520, 0x432412774725b23ea438055b783805b4a71d3883ac34452c11890d1b682b9060),
  (0x589111e400daa24957a0fbb9dfa9cd7d6419c710f432a2bbf20cf96e4901bbed, 0x151bb0af585d2a532d713802503bfd35ea5f8887ede283a419809a337b60554e),
  (0x1dd50e6628e0b6c5e8a546d6b51110ade10b5bbad993458340b08f7443b30ca8, 0xf2c679e022ddcda1134838f83724d6e33882555d47281760292e9d54cff2b821),
  (0x76e2ff3dc614e54b487ba134d04ff4437f227bd21c1e7e2d40ee88156d2a5768, 0x5ab8ff4c02938188758caea249ba158ebf731d512328fff536b88d6fa3177ec7),
  (0x20a38f574893cdef6c4fd00103866dcb5a69d3497e940d7933e1605635edc56d, 0x22061ea5080d53f7a663eb4fbc3aca866ed7ea2e7a4f8e6bfbf3e790fac3a15b),
  (0x89654db4acb455cffb093cd12ede8965d38bc6da5a0a641e2480dfe6f546783f, 0x25f504d3208cc34100797257648083fe291f3764373294d4413cbf9a26e1adee),
  (0xce987966ffb34d009ee9f5475dc63d5670aaebca679898ff635a8e5ec3a0ee43, 0xa4eac8b04474b571253bcb81c2352fe49e435484382a8ca8f9f86b195e26310a),
  (0x4fb265b3cd44eafd939d271601e85df0193b4e9e99e0b697c1b97512c1ad8cf8, 0x91099ad839072aa78de46cb0526049988e3a8ca6e3d8b096321e7dcde51e1ae2),
  (0xd1c9c40b262e6522a7106f5e953287230fc8716b7fca2e132617f91c93aa96b8, 0xa363fc5e521e8affe1baa5de5cbefd5d1873439d1543c021b9bafe8642b7c094),
  (0xcb6c834f4a178f8f0e06707c4e46d42814419c6322c647dcefe6320df862eaac, 0x7c9b41c3a5d9d605b6142a1e70500063d4c4b0499879afee0f993a45d30f917c),
  (0x3bfb75578a2fbba013f7b5165a7869720966eb2f7c67aa28bc00fc2f2f8ba2c7, 0x421e8878339f62469b4473d17e172323bff3ed276faf46be131c4f235a2b9620),
  (0x264e335776edb29c2b18a9f559ebb8dbc0814124a35b6c930fa8587a25a41632, 0x6961bb94fec11e04bb31c5600a3882ce16b3015b501e6214af245ccdc87c51e2),
  (0xd154c9349a3bd49968ad747c99604a1fbec33738b1df73263b825b8deff7a3a0, 0xc11828d51c3874346428fcbe263e394473bb53926c560e8fac33506f1cc7a906),
  (0x985a892e2a389532c52ddcf8248120cfc3aad9f92d88667c3cd04be13e4b12ff, 0x6785426e309c4d1ffb4fb06c7ee2aceaf95375e08dfc6269fbb4b21b3bb85fa0),
  (0xd99fe2c71d6e732f6b7fa0b5ac6bc6349b649eeeb70a5554659b17c8d8ceb147, 0xe3baeb4827bfde125c9d360dc696464d18fee6e7a797b79930e6e7628d3abba2),
  (0x5157c30c378fa45817b876533f8ff89a2f6d34201d2601522bf5db47f23206d5, 0xf508455892e0fa89deb483e6bf847a64ef22f7ace6518cdc7517c5c52d4fb936)]

/-- precomp.rs, "1G..64G << 231". -/
def row33 : List (Nat × Nat) := [
  (0x4595cd1f5d11b4dea9a2438bd73fbd60b71bcf1bff210e8eab9659d8df7304d4, 0xc94296218f5ad154c6038e5edf928a4e4a0f0d2d7dbb6e569c0d329a4835859d),
  (0x54c9b20cee4d54bc6bdd0a63176cde206cab71bd60b9407891213462f23f2d92, 0x831469c592dd3db9c7f68e169308643403f8e617206eedb03cd2d8aa9f2ac02f),
  (0x06930a5538961407cbedf281d7a0992c587e23ec3588a2598521df248f981354, 0xac4f3992fff6d2a9e6c8b4d909065160a7ffa5b52491817f09320debbe5bbe21),
  (0xe8b750070a1c98cae54342d928ab38b4e0af6d98e37ce2407aa7a1583ae9c1bd, 0xb4069ea4e3aead59052a19120a1c67fc31b8b856ea921228efce86afe02358f2),
  (0xd2f45c12af3a580f04c1d2cd2ccbfc5ddb938e5b0fdd7d883232d6e27fa03cb3, 0x2cc71d2d44d8aaaf139e45a91567e1e35fd27e68be7c5f26592620b57883e614),
  (0x628ad2a7ebe16f43fb7fb04c04b48ddff722d7b1d9a293824a9090cde36d0757, 0xec336b082d23cab030c0754ec903c1886c34ecb15104b6c4cd3fbfb520226040),
  (0x61830b4862b606ea87ab956ce9f6b2c3f1e274808c49a633473d62a21e206ee5, 0x74c116426b9836ab52bbbfcb952ec365fe40139f4c02082a67cd6846e78e815f),
  (0x4dcefcdd84b78f50518919e355185a24230da4baac712b279f51439e558df019, 0xb72d824cdbea8faffd2fc35974eed27355ac9abfb30e009ea7d90fb2a47d4c5a),
  (0xeb1757ed2b0e8c2505199968d5baa4500b41861238240b2cce721a744513e2ca, 0x5558a2a7e06c936b2acb5e2352f61499b2431e2e48a237f56ebc3e283dfac6d5),
  (0x0b8b3bb64c5595ee1ae8ddc9701144a998799f425bfb9bfed213f923cbb13d1b, 0x171b94846943a27647ef464f726f1d1f17cb6c4b3671f9a70ea9ef2e3ecebb21),
  (0x38f096fe3035a85164a61d35afd45bbc0850922291c4402a51a4ae2d7ef0329c, 0x0b4c0dfa8b77dd66ea35ff40f4a06353e8cf10e74fc7dcbac7468b74a1dec027),
  (0x4e8ef8387b6cc93b64f58eeeabd4743dfab28609c1c0256c779b8552de7e5c19, 0x1ec0507e1641de1eaef7c9d7bfb70ced4c1f9d0973dedf61ee650d264cb1bf3d),
  (0x438fd90591d8e8fb517a8494c170315cde173c9a516ac9e4cd7e5cc7cde45079, 0x453add2bcef3aabed31646bf0d9a80e86457a87bf47d4d755145c506c7d9630b),
  (0x594abebc992bc47a34158c1307c431f3faa71e62bb6bca80c9941109a607419d, 0x1a29a366e884491aedcd65af077c04f048aafb353f42cba46dfea691eb78399f),
  (0x8568d2e140e32bcfa3fe7e25bcab072ef99a513ca5057aee023a40e51c21f2bf, 0x87a6dafbc75a7fc1e4d68d76b6e330f4181a973307affab1904594ebd3f69d9f),
  (0x3a55b52e6f78033161d5590bc40493b62480d4a8197f015a549db2b5ef7d9289, 0x9d5e9d7c93e8dd6164d631f0cc6a3d5adea7de5a92e5c62540eb8115309eadb0),
  (0xe4d8163b09cdaa8a4a4f6912d24cf5ba23d5e0337d808bd4f297bef5206d3ffc, 0x5219da81f1da391b1f9001504b8eee0a4fe1246c0192f3600e0de9efd3082e8e),
  (0xa3fcac892bac4219e353936189e78671d165e6bffbb07d5f7bf6a5c1f7ea25aa, 0xce263fea19b391816cd75e3140d858495a4adac1e2c1c2e5dfab6fd4f0baa8ab),
  (0x25547c4f368f751ca6de86bddce978f07f40d5ce790968c8cb6803d307032c72, 0xb7df465cb911a06bb15d1c2712504442ce69336f1eb9179cb1e685fd65fb2a9e),
  (0x158de498cd2474a23578aeee2253c504693bc492fa3bebf7b8d804a3315980cd, 0x5836ce7dd30e7be8df61133af3c1e46ed2d7bbb378d7177e1331f5c7cfda8368),
  (0xc2b52f650470a22da542f16f59e58243d35653d4429ed78283084f1994f834cb, 0x2f186cdd411933e4ca00938b87d61402cb05abac3f5252b4e3b6221b18f23d96),
  (0xb5624622ebc66372c97667c719d92684b19b3c073b6c8402e042ece59a29a5c5, 0x45a9d0864533df732033561deaa1633f83a7176c8eaa39aa0cb96e653c04fa02),
  (0x7b1793937c35db79e3f735e80ee7fc4d82c996efaa59c167e0542c1d3dc090bc, 0xc7c5dff18de9366a979f6f9b298dfca84d9d7a1e1f327b04b6419e25f8c5dbfd),
  (0x5ea886da8d5bca81de8a55b5d8eb958068005534f8319dfd1b7a588d04c82bdd, 0x7de96ef595f9cd872ad828b1d8e995631bffb4fe35eaa0a1e8530a01252a0b4d),
  (0x2fe64809a56ed1c6b0547c018b211fe903cfb933d33ef9cb4abb2d0cd77d970c, 0xf3d31b04b37ac3e9c8d1ec1c296605212a1372c01a393e33cb7d5624c2ac98cc),
  (0xe618919fbd75f0b8cfe85b7adda233a50603ac8f0facfb55a29ae9df5ece6e7c, 0xd3b117ef03903a39dcdaf341319a3e021f43afc9f184255af555a3d299bf1603),
  (0xc103fa04d67a60e65f37389e462cd8dd86f16367c37ad03ee095da1365d1d131, 0x11ae47f2b207bccb001777b0231fc12ece91edd8e117c98d57c34344f4b478f0),
  (0x5d53ae90b0f1c3e168fd11d07fc4feb37aff5b1df22e1ad8d983cf8d20f8a242, 0x2e8651506668532c0e67faedac628d8f85e3c9771440488850fb7905ec041803),
  (0x2a04ca66fc7d63d849ee565ae4c6701ef4cdee25b25cec4115acaaa46a67a6b0, 0xf4a8741296f1f0ab5b906ee62915d333f709a4f5d1b0d81deb105018ef0543fb),
  (0xb7b805812787843ebc82ec46adc3425e90725a606804efb3b6b82fa74d82f4c2, 0xd87f6f7295e4076459d1b9f31a04cbbadc1c62cbe783a6c4df46d91cdd1fc74c),
  (0x57be9ed1cf53fb0f98206cc6a5e72a568d2703eb91036bce02b4cfc1317f4a76, 0xc0d9e94291529936c8f80ea889935d0e74b2655ed9181b3809374571ef0b17ac),
  (0xb8d2fe566bcfd7c0f9d5bb197073a732a5db84d3aea34c93196860411e84e0e5, 0xb8b4a422330c789a1659b65f8374c1108cb20cccfdff8b5845775f36f3eb82fa),
  (0x7ed06e27dd0a5aae0be2e81bd7d93a1abd74b9e4286e78fe75e3c3ea6fe8208b, 0xc3186b231c034e1195cb8e6b5be88ed3428299d1d846db28721f5a586be8b800),
  (0x617aae8be1247b738232c0c218d3b1d4be94433183f531e7a6312c9e8977d99b, 0x31efae74ee67634668f10e583304f94cc6063d2ff7b8f82340153fc4282aec3b),
  (0x5184a52694b6ca40deb954f15184b2e314702c634f666256badb6c6d40a9b97c, 0x459cd27fdeb947ec9a7638544b0dd71a5aa374dd205974c7fff05337003c32ea),
  (0xc3e15899bc6a4530b132ec2d30b063102f020fa875ee8ef5a6e28161459c2b92, 0x68466ee7d742799f2ec2f8926b27e58b3a3c7f23c2d9acacdc5f53feaa3f451a),
  (0x813994be21fd8d15f9675faad712d657a2dc6dabbdc29d6398324dd41fa26613, 0x40b65bed9d41bf3044be28af69559df55135ff8bf3a36b205ccbb722fd4f7553),
  (0x5331c093c6ef14aa77c76553bc945b355e3abbe3209bdcbad98bf2a43734e520, 0xe8f2c0d9ab2421b6ab1f64ccbe2b97842285593b7ace16f8518ffe2976b60c80),
  (0x45c55808c990dce316ff1329263b54a8afeeb5ab5f6578fa617d7174c1df065c, 0x8ab226ce32a3fc2cf65da244b607ef8e799ea9b55982ecaa42eab6c0ecc8c177),
  (0x8a741ef15507f8727cdce3cf45fd9cf15c00ca7020888f2e745741e57ea973dc, 0x33b6c6782f610514930da15c15b18a2b70d08e43c97ea61847c51c2f196b4cec),
  (0x6ef2c5fb24cf71c31ff08623e7d954e51eccf050ba06cb79c662e4f807ac9794, 0x206e0b10b86747e07cb242ea7ebdaa37a0cf37961d654af8b2c063d267978453),
  (0x4c646980d4de40368040a01aea32459607084fd8c2bff8fc481dae5fd5ecfefc, 0x9ae284833c7569ec8f029adbfd695012e01cb91f13541ec79eb8ab4ed65abfc3),
  (0x891c285ba13071c10c07b14dceba4fc1680a3e4475f5f911a5614c9ea66d80a1, 0x06f8b1377ac9ecbe66bdb409f2e4312329b910a941e07e27cac67ceb799ece3c),
  (0x843be0aa6fbcbb42fc28c194c7e31b2719ab8b9f85e3415d5981fafd38547090, 0xa85f39d044b5ee334f19f3c595c1a3772a1330e401a45c05f3b1ed43a6db836c),
  (0x2ad599c41e8ca111bb555e0af2374aef5a403b397423dcb03da18e6d4ae52834, 0x1827cf818fddf4de079f1426c434010273092684f66d50071b3a2fb9014b3bf8),
  (0x6b521296a2ec1ac56d163450cac1c2ccd387145123739fc6c83605f6f10ff927, 0x53ea9e97a6102160425a8d5ebe8e3a45e47d3f41778abff70606c4f96e3cb4a5),
  (0xca9b838881dad33f8e564f64b1b9b421532401d2f3386d32477a106e39cbb688, 0xb2767c4acaf197c63fa017beebe7b2c7533d2f9269bc8112b1422b4e2093913e),
  (0x1581cf93316f8cf59284ddf59c4d0e717daf0eb936880a54c925ff87aedbae9f, 0x73d318ac02209400a5918046eefb8dc3b417fce9fb6aeffe3eeca8873ac1f452),
  (0xff8a35b62245fb6993e94d3b57ea9910e87d814b339927ede800400f728693e5, 0xa14052c203930c2981ac05bd59a06379470f1e680f653ce1043853d77f200d34),
  (0x978fe401b7adf678001700521e3e48d113670d1699f167716b72fab526bc2797, 0x5768d7e52f547a3ce7518272013fb6065ff8e247c7b27da555ecfb92d41c5dd4),
  (0xfc3672ae7592f7eac225c655103dde076b18e6e49c64ce9bbb24eaa360017a5f, 0xac948f13a8db9f55abb57c492a40e7c2542fc650e4d59d999606ad77d06283a1),
  (0x1fc87df69eb6fc95a51729ac5f318d7ee3d062fa6468bd156d4c9682b04465c3, 0x8f663391440da6da59f5f15ace31348ca861b8f7589621aa63d146a80591f652),
  (0x8aab4e69a78d8254be8e05a5444ea6b3027ca9c54cdfebcecfa778acb591ffa3, 0x568aae8385c7ebfcbb0aea4eca47ecaa6597ffd4045b38552437f04fb474d6b8),
  (0x443d8baa016b7236de1078218da05dab49eb3447d17d87620e966e64c73b2383, 0xebf53de20e0d5b64ae648b6580baa132e47e4185ce1ca979163b63a5ea7610d6),
  (0xbde1666f26b850e855ef64153de7d3950d914ef35d04b3098d3bfcb4d3c8c1ca, 0x8e9faf6ef52523ffb1674b7edacb7a538902b322e89a2672dbe1ca6ed449ab19),
  (0xcda8564d018ec97e099f8c47e873dc64d21f03aebd0626d46ba535da9a85788b, 0xa4ee3dff273eedaa3ef26275f880ff7c78e035a173323cc43e8d7a5cde92c68c),
  (0x5e2ab3de6cdce39c9ded19d9559d3186967ec9b50672f32858823507af4e18f8, 0xfc0c1a5a90da9dbf9a49a0cf1a885719f9783f4387723014abad6e4d11c226df),
  (0x32f2a62f12e5c5ad8333b014a14ea4af569e85fe4692517f8bbaec49571d92ac, 0xd6e5ba0b84b3c1992530defc01f795a2b90741aa2ff77a0898c2ce3a06d89b85),
  (0x6b842ac791bfe2bda583fc8c22262bc9ae419f7dbd0be17b7d8e845112e4c936, 0x76ae3fc3d9e7e158f16cf6f6234fbb925f69f4deef81fb1433cef4e9440d6827),
  (0x5f9a72240257b1cd6c6d8a7f68d10d15677bc85d4962d6a14e89f6c2e9740b33, 0x7eb6094d80ce5ee2de57d7d0f7461d7e5f8c47f7e657ab4a7096b9164ad85961),
  (0x78ca06bf876757190a9eb24d97df44e68a394f43f05dd1500b1e1dfd34190547, 0x81ba76c1069710e3ac83363ca105be479d91bcea36cdd8fb6f0b34626ffeec22),
  (0x7b0c03e9405eb1feb587c779e8e66e9827f252288612575b3d1b24cb28c682c6, 0x6287223ef47ecaec4cdab04a4f310c40a8be76e038b36af7fdf0d03015b548e7),
  (0xdfcf45b85c2f244ac482866b03261a5e61fe3fa6c01e4646678e60558b399320, 0x2c421d974fdbe0de1d90707ef5afa58ff796c654c7220a668fab9a512f684b43),
  (0xddc9d1eb914d3e0453b857c19ccd10b1a0af843dcb4efe24c4f4cda3af2ebc2f, 0x1740f316c71a84ca7af18dd6832391ae829277aa91c5aa817bdec8bb62771deb)]

/-- precomp.rs, "1G..64G << 238". -/
def row34 : List (Nat × Nat) := [
  (0x5fcf57c5ed408a1d4c5007c2e72b156cee7aa73d6e24d7288928e99aeeaf8c49, 0xe6eb38a9f131bea22cca254b7e103e2d7d343c01c2868bbf9f719e39b6057604),
  (0x9848949b7db8bfd7968e636967d805fa2a9ee4d1058e3413b33e624f8be762b4, 0x8631594dd757e089c95c139e3dee471f892f3b1df3e29da55308d7e5d23a8417),
  (0xea613a9d7657ae0782c5024932cb1b2d2e7b599426fdcf4be0c82a3cde918dcc, 0x000da7133e1290e6253dfee0591cbc7fb6eae8b8879fe682c2eb5f6cf1fdc9f7),
  (0xb585113af35850cd6bfc02523d8818be0a28ad7714e68c331083e2ea1f095615, 0xc33ed1de2909df6c92c34299552f00cbaddda07c4ab7e3ac7d935f0b30df8aa1),
  (0x2610ffa2ff1ff24109642e4e65e749349e99e6d89ddf4ac022c2195d80e87766, 0xa90cb5659441eff30318ca4687477c33697b4985af3a93634d1d47d4751c8159),
  (0x191be071af1d8f026c59587cdc7e07f185be1f773601616858bb384836f024cb, 0xb48a876da6549e5d915e367f8d7d05db3864ba3cf7d04eacbf169fa5cca5e55c),
  (0xf53fc7d75e1a464974528045a47990c9f194ed8c728068bcef89c656580e40a2, 0x53b7d63403f8f3efa8c1eb2404a3d39b2cac4ee341db65d7bec5ae9b78593e7d),
  (0x932b33d4622da26c5582a94b79684c2b6e4a5d397d8b63ae2dc40d483e07113c, 0xdf178168f70155580eeece0fee5bdc9b211d07c964c23a52f534f6510dbbf08d),
  (0xbb7419728798978c00b095ef8f13bc8393cbe44809273f8cd42946350a712229, 0x2da7715de5709eb43961151b851f9a31e578ec565a5d39ec9d7309a256dbe6e7),
  (0xf84867a616603be15c75a0cd815d9958728d2078b8e39259867f301753dfabf0, 0x7c9017ad6f028a7ce46041daac1f31210241446819b03e2cc865b13d70e35b1c),
  (0xd461d7669ce82de368c38e79a57d88e74265d6b1b77e54d4abc96de90a482873, 0xc626833f1b03514a9a00e785985d494ecc5675cda0def5f2817a9ec564a7e489),
  (0xd568d090a6e1fb00689886cdb023642a50602fb5a1170184abe7905a83cdd60e, 0xdec2057a568ae828dfca35870c95f86e93831cd9c43141e45b1922c70259217f),
  (0x3563cce212848478d5ffb6e694c4f68755a0a7a2f7c23c1dc44ea599f98a759a, 0x2eea4056c86ea3b8211ecee952d048db8a7dc9794f7338e0812b3517e7b1fbe1),
  (0xeee376f7391698be9b32f6a60fec14dbe16ed3415f4e2541d8cb68a7ba772b34, 0x79a59c3afb8e321629f3a8da5ba4990f65832f975843022ae9a7aa1783674c02),
  (0x1fa352b713e56128d4ce14d0969c0b47c6c7cfd0b3262d869cdc4d2ebd19bb16, 0x259df31f2d5b2dd2c7714596e6bb571f71836850e8e5b7bf383d55b8973db6d3),
  (0xf8835decc3f0ae84dfa413bef5f499ae18bc5b6de1a26f5a568f8925913cc16d, 0x5ce433b94f23ede0bcd8562592084a6965596439194b377eb6e60bd865a40ab0),
  (0x71e29ee4621eba163d390a108295c0c711511827d6e14af6e8e8f04f6ad65143, 0xbb4d4bd612f3c849931558c604c22b2202be02fee06ad4a2a588fc0963717b46),
  (0x81cc10ca4b3536442db8ea1ecc9784c292ba6d20c5952d1454a4f49620efd662, 0xe5c6097b2bd499f501379f813147e7975c9f1d9684a1dcd240b570ad4b4d7f6c),
  (0x0ea0e79fd25825b1b9a4f11847bfc978f7b5244a5481555040dcafa6328e5e20, 0xbe3a068fc713f6e82af04677dfabcf69eb811493446dea9da50f96eb646c7ecf),
  (0xe66dd6d12131300d0b616dcac1b20650bf0779414e3aff13860d523d42e06189, 0x3333b1e83abf92af022ecf8b7c46b2d7c9903550c7aac50dd4a0fd67ff99abde),
  (0xe982aad8a2c38b6df5b4d9e729d932ed0597668880dd3f8811cc113c6c491c14, 0xe92d6942ec51f984d8131156443ca77f700080ae65ca53f26f9253478be0dcf0),
  (0xf38b135a430cdc402c53988d39dff020d825d9a54d2a86cad2a08af885dfe9ae, 0x5847fb2a5eba6239afa0e7ae4dbbf02ef31fd8de0c340e9b0c918ae062a7150b),
  (0x2ce5e865fa49d3fe873f37657038ecdfb642aa7806f485c86b1647dcdccbac8b, 0x49424316c8f974aebcf7cc7a06becfd78104a8cdf1fa5279ea223788c98c4400),
  (0x80428dff4c6e08ab35c712b17ae81930bcb7443f8f759fb8c0da65e784d6365d, 0x358c1fb6882da71e20ac409cbe3ac7ceced8538dffa9855ff19dafefa4faf843),
  (0xa8aba5395d138e7e2a80db17f3a28d382b2cfa518421c2fcafa9c0e5fd349961, 0xbeebef3f1b6c8da257735447b264f56c65d8dea0cbaf962252012d1d6e96eb8d),
  (0x15a76065752c7ef6c03567c749794addd50e8d72bb64a161fc346d98ce785254, 0xae509af2d8b9cf34c74be4345a82fde4378e443873ecc0b059f3a222961f23d6),
  (0x3562667861acfa6bc0481b2cf5f7b884e09b748cb611deeb4a61ee46577f44a1, 0xbceafe4f65b3a56737fb85e1954073c022d96531b205a76d37f4c518bf8d21e6),
  (0x1e6c9847641491ffc9af13c809e8dba9d3fc608065046be6efecdef7be42a582, 0x06fec31421900942776a0dacef0859e7b7eb72baac2a21223b574925d30c31f7),
  (0xda05261c5bc2acfad7a88e2a4336326b9bfbcce7875ebf692464bc10f8c22049, 0xdc744e8e04d0b326a72773f22975f127471237ca25dbbf2ec29f5bdceba7efc8),
  (0x07b4116423de4be1a167d15b5080b40064357e372c007e7038a7ed16a56edb73, 0x48434e8e0ea34331ad6b36ba7503e4823c1628212882e7edb2d91e3274c89883),
  (0x417b66abcd5f29c776fefae856595eb1c46fbf811939b44a79f4f24f2c7ae0b9, 0x9d062529e276b9935ede7e529b0286e6d69661ffe1a1cae25f2332b2c5ceec20),
  (0x39650f1a76626d9d30a12f08d63fc97bdd744f8b4af07ca5324794b07e50122b, 0xc3cde18895fb18871569ae95b26eb58a3d815f19d4dc124f101b47f71fa38477),
  (0x8af52d3586e50c56821d9811ea580cbbb0100e067408c1a554e9f37bf9539a48, 0x08a53a686def707a203d38f8e76a5df82961a1ea03dc1c73dfbd9d47dbbf698b),
  (0x19d84d2e81378162463c5315c42f2469b3cee3463c68803626eefb481bee45d4, 0x6fb1fb1b628559d5cf198c56b8abceae65965844163d59c522d7c3c51c4d349f),
  (0x1f0bece2d65b0ff1d8953cea35f7f0d346259c583467734b8bbffd0607bf8fe3, 0xe849f910ea174fde4a365626836b6d4629e8ea953cb53389f7d5b4b3f3c72914),
  (0x707d28f7a61dc76824b5d7a9a5f9adbed8dba5ab6209f5ac7ec62fbbf4737f21, 0xb8f0c980eb8bd2793c4bab6618d4bf2dba7b174d1c92e4cc7711460bcaa999ea),
  (0x996193672571c8ba6e635643a232dcedfba9e42332a83bca024bea9a324b4737, 0x48989780ee2c7fdb2263f0f08290c65af936b3ba2442d54ae8c9f35754b7032b),
  (0xbed617a4e18bc476271c557b8a73f43d737cff85ad9b8500adc5d55a13d4f95e, 0x6791e247be057e4c1b555f5323a7e545ae7b89ae3a2870aa662454017dfd8ab2),
  (0x3d5c3a7fc1c35c34023a4270bedd3299ea1114474cbeae28860136ad324fa34d, 0xea251c3647a3ce7e92ae5ccc4e28a982d92625e2fcdc6b9ab0f6db678d0412d2),
  (0x5cf06fd5c63d488f712c2f04c0d63b6eed61058906b736ae9d658932790691bf, 0x1cf4a1aa0a061ecfa9d1ffc4667acace1f9bf7622b93257e97363facd9588e41),
  (0x1fc099ea04d868545768640ce39ef6390643ff39a3621ab040e48a49dc1818d0, 0x058d9a82900a7d1f052b146fe5b475b6d743cbd27eec54ab9130b9c3eccd28fd),
  (0xf60370045eafa7205cfa59c8fe20684296f924f9bb0edf0365e0229291262b72, 0xb40606f526aae8ef91669b46dd8be949381e8782cbab24955f30699e18d7dd96),
  (0x720c00ee653d83494398d5ca4c1a287516196214fba800ef2812b839fc6751a4, 0xf7d16ea8e3dda99a70694694471f6984880ee660a39b5825c2699eb0d820007c),
  (0x85512b4dfe0af3f5f28bb767a2294a8a9ebf94fe4f6952e328d675b2c0519a23, 0xe3ebbb9785bfb74cb30d1b10a16be61595c2430cba7548a718958ba899b16a0d),
  (0x73ec66f689ef6aa254a76e1883aba56cf6e200bf4fcdb792a3273cfe18549fdb, 0xcc5616c4d7d429b9886435226bcc094aa959c5b9b7ae1b9d8d17add7d1b9a305),
  (0xea06b3290e80c854d619a81809c15b7cc6217a079d4e70ada6dada01e6a33f7c, 0xc12c4acb1dcc0f704ea7bd693316ab5466dfc310787c65f4174811cea5f5e7b9),
  (0xb5ad49e4673c0d52ea296c12ab77b7a5e8a3587c91afa997e4308d1a1e407dd9, 0xb3f99fc2b5e486e2978603b14e3066a6a88ff34087bf6ec240f9b2b27006085a),
  (0x617969cd029a3acad779c2167214d5cfbe57e54784c8423207b53f5eb2e63645, 0xa8c4f4efd5968a7258fd0e939c16177677b4d19abe9b7ee8d17668cd8a7017a0),
  (0xbb8c3c1beb4b9b4267e440c28a7100c9ae3c0b8e634f7905296071cc67b3de77, 0x618487aa5619ac9bf73a2f7b13f509f37591f5af9525e6426d71e8eac51b3583),
  (0x77623bcfb90a46ed7d9b11d3963c35cf00413bcc7592d28c3a72e5f79d61718a, 0xcb02319f8b7f22cd33b89e510ec6e9294a741f9b0601846edeef273bdcdd2a50),
  (0xaa0c030a263fb94facffb5f27cdef8112f0ae8d7343d2693bbe1500d084bae24, 0xa89e38dcc05141301ae6deb70ad8bc28f92e181727b139d36eef0d61a0f442de),
  (0xeff5b8ef880ee19b768fa10a019056145a15ee08cc8ef89581eeb865d2fdca23, 0xf6f278962ff698e50587d8b88a4a14c02e1ee9cdb8c838f9f0c0cabbcb1c8a0e),
  (0xc78ec0a1818f31df9115c0c770e903b3f44ee1fe6b353b45ed38ef1c89ee6256, 0x123aae4f7f7eb2f133aa82dd5cedd805d96dd1f3163bbc256c003324b7dccbc6),
  (0x2ccb9b149790accff19c5c01b2eaa3af1f7f4d5d0060ebd51723fcf5a26262cd, 0x52fe771f01a1c3845732fe42bac96f82632005267247df541f9c1cad52324aa6),
  (0xed971c901e8f3cfb266545a9d5db8672b56b4eeea1709f75546ca13db1001684, 0x68b44cafc82c4844dc5fa0677bc7e9ae7570d9ece4b696b94e7d8691e3a07b29),
  (0x1e62960e627312f66e6087976278a000283834f95ab32e66519d34b3bf44da80, 0x06394239ac143b5abbbc09512facc27d80e7853824fdbc1f9b87b27be6901c55),
  (0xa6f9d9ed4e2ea2eeafd29161b7148a3b7cb6269463da151135bb4a40376c1944, 0x36ce2871901c60ff2aa7b46d6c0f8785903c3813a61139a915dc2ca2880dd212),
  (0xfd3ed11af4ffae1287a9b1f667a31b587573baa2032f33d3c683b028e10d9c12, 0x2beec455c321cb36ba67b49c727539418239f0185d6fdf1683dcaa9a0cb2748e),
  (0xc939e1104e8e7429054f1ca7598953dd764170838d38c86f880156063f8b84ce, 0x1585638f2d997ba2d0debdb2781b2fb039e35ed3e74b8f9c9b1ac2b35a914f2f),
  (0xde8d6d630d8eb84306d54e443643b52a68a210811e80857f9c4b646e9e2fce99, 0x43b6c03c10281d37227a58bd861387878ba826f25eaa36227032156342146a0a),
  (0xa93c8fa0ef87918f48b2a99acff158e1744e5e8adb6f2d5f6326afbbb54dde39, 0xc96449bff23ac3e7ace0c0dbd2e31e67216235d2936f9e7a2182f956de058c5c),
  (0x822e4556acf8edf95757f6b356427344a28e14fda45e63357e9a2874170693bd, 0x986c3726110e5e4940dde2ddf845b8445866f211a9df3af02b7a6ee2e6a285cd),
  (0xbad1ce11cf4663fdbdff72672d438ca757b94f0f0cccb24473680c2af7172277, 0xfebc4f9130361978beff0119bd6d1637f43272a6961fdaa69813ed9dd8f71cae),
  (0x19c02205d752baf4673257dc143ff9510e44a59ae63b89b702b37a952f41deff, 0xe51ff9460c1b5b636057b1a21b2208462e6392c3fd1502ac46c23069c4b7d692)]

/-- precomp.rs, "1G..64G << 245". -/
def row35 : List (Nat × Nat) := [
  (0xe0a393322147927d9354e90c4994d94acff9c9193597f0466e85cb51566c5c43, 0xfa2e067d67aaa746e2d4e6840196527488cfd8c22ff319fa8427fac10dc1eb2b),
  (0xf6c13cc0caf17e194d1a6dd7ddf800bd9afe153ad6cb3b8eb6d92a7f3e5f9f11, 0x3f8417a194c7ae2d168e7c07afa3d3e771095400a31dc3b215f6c58e325fc3ee),
  (0x7fab1750ce06af7711548ab1d77fc56a634d0f5f17344427ec234772813b230d, 0x0b9815a0face59f01c404170921209a0a7d2edc4220a67d9b62c10a74f7c4f83),
  (0x3db6d960c3683ba0a2731f84daae9fcb18490f59a283d6f82842589b319540c3, 0x73f6e094e11a7db1905459df347460d2b19436af0788bf05c85c63bb14611069),
  (0x37e83ed9eb023a99c878dcb92ca979fcc5d00f792bd8aa62dc7f938eb6357f37, 0x1b956bc0f0ea9ea1782483169a9414bd1086e4591d0fae616b23e2731560bf3d),
  (0xe610ad732d373685dedeb169af3bab6f0c5aa90b48ef57b57b85bb91c31b9c38, 0xd921d576b6b94e81e4acf747b62c036c0337edb68ca7f771f13870df02ba8e15),
  (0xc357c9e32b315e1183084668c45bfcd1fb635362ed348898dbc864392c422f7a, 0xec225a83d61b662b17c890eb7b0fb1997e946931e102b9a4b173b5405b2e5b8c),
  (0x3b8a4cbe5c005c26e6d5ab646863e9563cf11623d32a1f6ef306a3c8ee3c76cb, 0x85e56df66b307fabb0624a267923798dc4afaa5204d4b16fdcd529a59ce6bb27),
  (0x40ceb3fa4d50bf7775a5dca3ad9a558f91fc19a4d7ce76030281893c2bf29698, 0xd4cf10c1c34ae980d936bf1986a34c07927e1037597888c21baf6060bc9ba369),
  (0xc9c0d0a6b88b432663080d1f07cd51d59c475b5b18d0c8ee3a3e5334859dd614, 0x5230a6e8a24802f5565114270cea9cf22a0a83a494887fb61ac98691c234296f),
  (0xe0030a787ce202f9fedcbf259ce30334377174464f21439ef7a2bf0f72e3d5c1, 0x6c8d087ebb9b404df52072aff1dac4f8e79dde6c75e6e5916f2d9ebf1202e9ca),
  (0x425cd048b54466ac1300da84d4f00c8a909e587b458a07cbad0fc73dbce913af, 0x91af92d359f4dc3bd3aa117a531aecff991616db3e431b0eb59cb9be90e9d8bf),
  (0x3653fe47be855ae37509d95faface1e676bb6c17e97d91bc9b1ec292e93fda29, 0x2d70a9976b5821d8a4cdf29fb66d423675eefd1beeb6c26c73180b280f680e75),
  (0xd05cf3d7982e30810fc539f7949f73e971d1ac82598771747a3ee20720445c36, 0xbe16f5c19fff5e53b05d3a2f59544c2dffadcc20569e61f28758e20b7b1c7129),
  (0x0e029db50d3978cf79373b3f646fd6a0622c2119037aa5be73cf65b8aad58135, 0x7627cfbf585d74643fa5382bbd30d38eaefbd687620797a68bdfc43794fba037),
  (0x135dc5395b54827dd161d2cacf780900bcef72873566cc63b2330fef4e4ca463, 0x8b0c573826152c8fe973586d6d3321da10a224f007dfa06c638f052e27bf1bc6),
  (0x32cf43d888da52223d1a8152e1a0e30680fe7fe8a0f7047a07ef4f2a34606074, 0xfdcd1a7499c81dac012c17bb79c8e55e3d9eb9a4806ad3eabf89a95f5f02ffe6),
  (0x3e5c0304232620c8759800ff9b67b9124090a1df801c38867043178bb9556098, 0xb626289b0cf2297af981d8376e33345cbb2d3c15181f648e4b9d3c4b70dceeca),
  (0x4865a96d607b9800b71283da375876d81a28ae0975df01e5766ac6598baebdcf, 0x497f5dfbdc842203d0923d68370a2147332f4f4b6041749425dd1bcd237936b2),
  (0xcec67879ffe1d63d438477c950d872b17475bcb717a013759dc74cbd32be5e0f, 0xcfe81435cd44cab36799008e11fb3806c9ad99a878bb6b8b9b006014d8578c70),
  (0xd8474a98beb0a15b622d323d652c7749b8823450483fa6eba2ee15822f4fb344, 0x67a033ebb8ae97392b44c6192525ddf87fd581d90e3e7aace43c154d5d1c00d0),
  (0xa23c422e0a23e9ee57fff75e03714c0a1bf6767ed5a0ea7f113ffec19ef2d2e4, 0xd13599f7ae634f7aeb6b4246672a1208c2c2c27e55ea46a7dd5f6b2d540f83af),
  (0xef627fd6b6d79aa58dc3df8b208a1bbb61a5a640eaf61814cf914b5cd7b32c6e, 0x180cf93449e8c8851d04f25a958b9533e6f9231b061539fe44232ffcc4c86bc8),
  (0xae0efb3add0c61f896250e573c147c87b1959be307b348a6896895959884aaf7, 0x7b01a020f0b1c7ef73acbc65319ad41d3c911696ecff3f70ed00745eca8c325e),
  (0x93a375e5df3c546d9c6231d3343157e589eabe717a248f96ea32b29363a1483f, 0xae0eb3ea8fe0ea61248efd0d4f872093c4f89100e166c88ee76e93436a2afe69),
  (0x66fcd2c9283b0bfea3935d9a43071eca4d650f2d6cee0976af89790d9d79046e, 0x86ddebdad32e69b590ee050a43d950cfe77e5d07a54cd38d0e665eb5696605f1),
  (0x7de28501d5817447c4831d1de9957f75f7fa13093f6e8d5a6ad94a3dfddf7415, 0x479deed30d38022c36963767df9defc3ba2b9ff4f67a53c26f1d70789e2aeb6b),
  (0xdeaefbd02c9b85e4b2056cb7b00c5f118de855de7a213746d2edb89b3a8631e8, 0x472cd4b1b78e898e36296dd8b7375f1a37b84686218b798503f39a8dd150892d),
  (0xb910e700e5a6b5ef8466a7ae9b38024cd40450692ce98ba915dff651e9f05de9, 0xfd896e2e4c47d1f40dca11e24b4c4620bab2a5077eee74a6ae1c56eab3aa8f0d),
  (0xdd55e62e9dbe99606a3d4e90baa4838546cd5a2e02c36fdaeb45ae53308fbd93, 0xff410b1022f94327cfdcb0c280414f866860dd14f9274ea7a1406aa02a81ede7),
  (0x604aa9d2b52469cc14fb54a4b153a360efb48b6c0a7335f15a33cc3849ad467b, 0x63345e16cf09ff07fb2fd7cd8d3b37b6693cb45537471e8e5e9dc486754e48e9),
  (0x15b4488b29fd9fd06e1da8c39a33c6771fe19e357fe4364e9910ba6b23a5d896, 0xf2c4f79cb6ec839b3fd1b24907e5658e920a8a70ab8163e81f4392541a1f22bf),
  (0x53272fd7ea099b331754ac783e60dec03b0db35cb5d9510e1abbc3d04aa38d1b, 0x88a2e9096cb9897ba113b7f63c4ad5444a89e1376a8191fa5fb0494f07a8e107),
  (0xf2e8a61f6c733bf73208816810232390acb2f34417c6c69017d55de3b44a3f84, 0x1baae31ca39458c9a05c73c24981f110fb5307e3ed95c5bca774aab69c2d7652),
  (0xd959c3f13abe2f5b098a8cfd9921851ce8ac9eaeeaf630591def185bcbea62e7, 0x58f6c6671918668b259e69277392b2bc320789e307a24aa1a4f1952520e40ae5),
  (0x905e16baf4c349ed7650b6808f87761441d58bb7f4f6ca56ce1db2bbc55d2d8b, 0xd53f71460937921a3bc280ac8a402cba3b8784f0cb2270afed415140f661acac),
  (0x3d45e2d4782fecbd9503a53f936b1a3862126105f6ac9e4ac03c8ee5e5681e83, 0x30ca34a24268bce4f167471272386c89b53b2eebbfb4b00e69a5c43976e8ae98),
  (0x38a92a0e91a0b382bbc489fdb74fbf388ef5beb8b525e2487f1ed86c78341730, 0x693b550559ef114f7f6a30ea61189afcde8362d6a29f05a97a77ba3f22433ccf),
  (0x8cbb9d9fa37b18c9d6c4025c3df9483eea17b47ef4b7af2d50266bc0cd1797a1, 0xf986f3f925bdf6ce9eaf641f028206a3db7048f1ab1c350691cbfd9c4d8424cf),
  (0xa6210d9db2850ca8c16ed709aca8c84f2bbb09b481b50c91262143b5224c08dc, 0x9acede47f8d5028b90f613810f13285791eef6e0500919a46d8df67a09cb54d6),
  (0x3410cbabab5b4a412efa2e83bdb802ff563b71e4ba6426be844d1b7190b771c3, 0x03d7d5dedc678b35cf3e8c602f547792d0711ae9ee1cc29a555b2d2630da84dd),
  (0x44912ebf121b53b8dc16fd5dabfcdbbf222e6134697f1478071a2fa8ced806b8, 0x524cc235f372a832b6e224ac13debf2c8ea3176c1ffc26b0ac9436742496c27c),
  (0xb5468b2cf95520478c8326c2a88e31fc2552f00544cce35bd706e1d89f6f1b18, 0xaee35253c20134acd0a1b28bed56e32877947bdf2f0a5423ce683e883ff90f2b),
  (0x6c1f75e1904ed73473bba348faf130a1379ed61f8188bffb7e98367d3567962f, 0xe5b5c318009a8dcf836d425d9111eca1f20bc83d54ef4493189566423b4a79fc),
  (0x7450a875969e809fd7279ed8743a95a1707baad26b3eeaf73360b25d13221bc5, 0xe2697b58c315be4790da12cc1063ecd01e77f7af2b883bbc32b6bd53e5d0338f),
  (0x7d3b14f6c9387b62adf1cf84900385e753e78c1fff980eea2771a5bdda85d534, 0x55e906b0c3b93ab8cdbe8c9af6f32bab2d50b486827fa993170e74b0cb8f2bd2),
  (0x9dc63a9ca480d4b25ab7dbebe10b68b0cd8e0de5b2e114ab747f22fc8fe280d1, 0xbf4187bbd37c702f3f8ac05b0809cbdc25eb3db89359122d78d4bc3b4be1495f),
  (0xe78c2ec0fc61206741311f8a38038a5d8f860c7943ef881c84cea0691416a6a5, 0x35beef7a9e36c39eff558aecf3612cbab4cc9e0059604097494d2e815ad73581),
  (0xd0a1b1ae4dd721628b925afee402f6d85703662aaea997c01845c7cfdbcf41b9, 0x123c268898c010e55f5045c3503b8b0aa023829b0391d0429f47b37503c41c4b),
  (0xef8aff7328e832b0b364f3bef333e91fface31153dd2cc0c324ec0cc36ba06ee, 0xb09a8158d322e711a3270bcb4add627e42f0e3df356a21e21e9bad042d05841b),
  (0x6cee582b2b9b893a7e76543047bc4833ad7788f83703f65d86e326a10fee104a, 0x844cc9c5a380b54833ee7185d40c2e9defbee3c6d9e4190d9cd2a167e8f55a7b),
  (0xd65e1d580cec08278dbcac12fc6a7f070001e38f8110c1ba323f8ecd66926e04, 0xa91abd3ed012c4c1956d230d367139d27895cf5ce892f33ad2cd4141be76ca2d),
  (0xfe6ea8cb2888819590f0e579adb9c95fc5f07102914b8fb434fa488387eb36bf, 0xedb3af9896b1da07d7b8ebefcbe8aafd6c510bd22b8c8d657b9b5065edfa9284),
  (0x9b32a66d8b0050e1ec44d0548b8e26040c4f6ac73fa3ad7b28ff779d6295d426, 0xb6881229fd4edbeabe35aca6524f28097554d953a602c7b41f943366f0476ce2),
  (0x79e6c046b76a2b22f5621f5fb441ab4f9eb5b5c86abcefc7e8cd0c8f508efb63, 0x8dea61434fabc60c785f65d5b3c20bd3cbd252cb03542b6074a4792ce37a1f69),
  (0x4e42f66d8b641676a0e99b7f98c868c757f7aa1e703c2d2145e21446de673629, 0x5f789598153c87eefeb4da333b9a5187a0d690cfc2c9885b602884dc91077896),
  (0x79401711361b8d98465ea76ee4383693deefc0e63524c1b12192dd4752b16dba, 0x6c122b0757eaee06cca844b3e677016c73d26163efee9aeba5f9ace9f21a15cb),
  (0x5e79dab7d6d5bb0f9015ab4b65d89fc6508b9b122dfc0fc9b782dce715f09690, 0xed4ca4765b81eec69a761367ef2fa506df09d8cc37c7eca164f021f06c775aa2),
  (0x487fc1ce8065e6354c94288ae9831ccc0737ce830641ada3262ede3610bbb8b5, 0x1a1b8ea3a7cfe0a3b9a1857385eb0244dea5df3e855e4120b13d7ab3b8bb3659),
  (0xefbbcec7bf20bbaf52dccc1ed930f0e38d5e0d089d3645203b83711967b0867c, 0x0079e8e10870484864e2773fe9f10617d8199e6dfcd18f8a99cffcab0263ad10),
  (0x93b3afef072ac7fcece966cb8a6a90018097799ca83012e61169989f8a342283, 0x7ac708953af362b68852dfc9e0396673263dc46289bf4fdce6893a2a2db3d5ba),
  (0xb25b08340962744d97f3d3cd2161bcd0bf80907ab52d7aaebb9cce4d5c2f342b, 0xdccd9a920ede801ab787b890ad1c4afefe4ec7eb06c92317c5b18ea56c3a1dda),
  (0x8105a92cf96480c7c6f8bced815c4a4322bbc12fb8cae6ee9ac6dddadb58da1f, 0xf23213213d1f8dd8d9f64b250d1067c9e3ec7ce63041196b0dc3dbf37a859d51),
  (0x0bdec21162bc679298204cb64fcf68e15d2b0ac6c717370e8b5c619c76497ee8, 0x037248e9d2d4fcb45efb693e3d0e0c8bf9e3fa97e0de1ac56973ccefa63b1011)]

/-- precomp.rs, "1G..64G << 252". -/
def row36 : List (Nat × Nat) := [
  (0x7be5ed0dc475c1293f06d66c530cb4f3d8772d353381060380802dc91ec34f9e, 0x0aec44147285bbcab92118c692a1b45ec63d2857c9ff6b4ccb9e3c1931e82b10),
  (0xb7a23f34b68e19f8d0107914ceaae10ecbe906f04c93302efc189ae71e29a3ef, 0x3cf0bbf83d44303865591bf64da1711303198c6efcadc9c8e9d875c2efd2119d),
  (0x389caef34ec5b10982159d07de7d6f2c945353e1b2d4c63aae485bb72b724759, 0x73429bb9c14208a3816fa3ed83f2405f2dc2cb7edd99de434a8ebb53db65ef14),
  (0x412c9e1e9fa403a4d1b299b504aea4a9047e2ccde180b2dcb618d590b01e6e27, 0x178851bc75122b973a1b6fcce668de1949c50136f332b8e388d28a3679407552),
  (0xa35aa23fbf846bbbd43da670d2f74daed61257ce383c8ce9b1e13752fb85fa4c, 0x50d05aab9bc6d22e34d7f52a3c4aa158f6df8ee0c363473b5e74235d4421fc83),
  (0x50235a0fdc91927053b2bb803ee35067bc56637b5f29cd078c56e735a64785f4, 0x8881065b5ec0f80f80400ba5f0f805bac34758318396023b191ab6d8f2c4aa65),
  (0x8f12502ee0138997ad364df067b256dfde2d4ad1860b8bfbc370e522cc1b5e83, 0x03511dcdcba5dba53f89b744d3064ba6e80014adc0bc866a503fa0dc7783920a),
  (0x9211e489de7f4f8a426eca29484c2ece9c4e7ad63c6341fb197dd46d95a7b1a2, 0x25f92e470f60e01817286a6e1c3eede82b2c09100657458614997f6ec78ef1f4),
  (0xe0e5daeb54dd3739389f747caf3c3030703ef60057feea5b805c564631890a36, 0x4a1bd7b5f95a8c3b37183de2af20bf297e4bf176b5393962fe24a4c3c9c9f155),
  (0x6372def79b2bafe8b18e2c1354107588281fc8dd7b87f257a83b969946191d3d, 0xe3bcefafe42700aa1eace32d84310cf43f2dd4b756167a3fdaf4bb480d8972ca),
  (0x35e8048ee03c366502e23d41dfc6514aa5db5ab62ea604675fe5691ed785e73d, 0x1343d185dbd0e40fe8cacc6e2c6646b828ec3b4584ce1a5a3f8b118f1adaa0f8),
  (0xb37b515f042eeec8d64cd42d9c875d9a1a1db7e49924182ae5d7f844caaa358c, 0x55a481c08236ca007dee410259b7e17efc322ed9e206eff34d4dd4097b165fbe),
  (0x956b31e003c45e52a078868ef78edd391571580605d6297b8c885312c23fc975, 0x8b37b6344c14a975419227b47e2f2598c8d5dc3a0c7e673f470275d5ff7b33a6),
  (0x9f40ac3bae92032334e5d0dcb987a24a5e0e8c3e803e25dcd0667ed68b11888c, 0x7ef1ec27c47bde35491ccd7cda64f1b7a128bf926b6328f95463de9534e0f63a),
  (0x80f1a439c929319d7a3a6453d4fb689735dc136663621bc1a857240fa36a2737, 0x50d7c67d372ab09cfb0d49241e01d0efb0b537668078c5ebfc18274bf8cb0ba0),
  (0xf8910bd2ceb38cbfb4acd4c2e3ac5664e4f7fee9c4b63266b4e370af3aeac968, 0x3890896aef8314cd70884b7ffd5a5a1b15309569d97b40bf1c3ae50cc9c0726e),
  (0x753794e83a604110b32181bfb6f767a8e665432b77d942d158e1515ca5618c93, 0xfc21fb8c9d985b285d98e5577d46db0031e02613598673a309afeb7ce8c0dbcc),
  (0xbb3bcc87cb7427e8dd1649f085d7d83053b1b3a869b04531c9040116b0843e0b, 0x147e1384de92ec83587a2b02f3149ce87e79da61a1922a2a77261100c93dce83),
  (0xf34714e393c8177d912076c2027aec53ea78f8440658b53a484c83d3af077f30, 0x0ba0c58a16086bd43a75c484ef852a908315b6593d1aa78337ef5d15c2376c84),
  (0x2b7587e7ad8121bc123042fb682e2df99c7f250dc2f1920329688d7a529a6d48, 0x043e21ae85e9e6a77168286193fb098fb82ecf87e3e1128a30fc0233e0182a65),
  (0x0e6559e9cc58df3cf40fb859219a2a473be43e1847414287ab5b49d666c834ea, 0x8e63ef68e9035c7c7be0fa8e05de038614abc8fd56459d70fe1dfe8e0c6615b4),
  (0xafaca8d01f0ee4c49151f9a0107afd660cba7ad44436b4d8116401b453b31e91, 0xa8fb9a60c2c990b93ee2bebd0304804c3497a16bf0c0588f75fe5c1d9ee9761c),
  (0x324d301b46ad348bc9562c66dba7495c36bf25bccac73366d14d32fe39251114, 0x5b211a0e03c317cdd396d532b0c324e00ea8d4f1e3733a019f46620cd670407e),
  (0x6e220932f66a971ea2cb525fb54fc5193b7f3efb1747d2da090d7d205ffe7b37, 0xd6fa48a1d8d302b583da7e4e76e4c1517fcfec463fe13465ddc160dfb486d440),
  (0xff59e603bb9d8d5c3553e725caf0bc1c806c1d3c278b90a1c6304f265872cd88, 0x7212f2455b3659550b88b74169d62213dec5720a93ecc217a4550f327a0b85dd),
  (0xeb75466bffaae7752dca77da1175aefb13cb7f581dfd312420764111b5cae787, 0x20fbf8f7a1975f291bb3ac92b525028b7440f37a61fcda9a74d76f3bdb6cff32),
  (0x7913b93c40814194dc703717a2ce2f2f28738f6c554b0800982692e1df83097f, 0x60deb383ffba5f4c11c6ab015114a5a17b98443ff78834a6049245931fe89636),
  (0xcab0077552494724973c315f7cbd6b051dd35e113491cd264caa54c601a982e6, 0xe9c7a366fa5e5114fc21641ba8a0de37bf30f5298c8fb02604659b1f6565e15a),
  (0xbf733e7d9c26f262a1a2bbaccfc3c789c7e8dbe9024e35c0db849ca552f03ad8, 0xaabfec91d4d5f8cd53023b8b65bef640b7224e886bf8483b882ffbf5b8444823),
  (0x1cff1ae2640f803fdb3f2eab13e68d4f1ad9addcd05d5d26a40e1510079ea1bd, 0x22b37f69d75130fcce34e31d8f4d4c388e9f275b4036d909e0e7b749d4cee117),
  (0x4f59bf5c97d4515b82375b7541792efea8ce99198941507883e0f1fdb4014604, 0x825885305ccc108fc6fa87d18a39bc51d9bc9b7d650f3406ac4f324f923a277d),
  (0x6cd15a3c5a2a412be706381b7a1dca258efb83143a4464f85ced3c9f82e4c634, 0x11e7c1ed344411afc4aeb11ef8d8932f31db2eef6e54cd229347a8fdbfcd8fb5),
  (0x9c1b23426f39019a926c81c7fd5691e79edbfc083bb0a8592653050cdc9a151e, 0xc676c626b6ebc47d390b333155e0375a90657c070176181964a81c8b7f8474b9),
  (0x06cc32b48ddde40899700161e9ab35ed0948d9277965931351623247b7d6dee8, 0xc4428c5e1e81df6955388bc1929ba99b1606fa02c202e9ed6f2fd664061ef338),
  (0xb205fb46284d0c0066ec2c870affe8edce870a23f03dfd3fce2028aef91b0b2a, 0xd7205ff52576374fbecfa84c08b72863b6fc37a8a19876d7bf5dffe744cefa48),
  (0xeb1f6069452b1a7813f427533c56ea175de0df0c869ea53480330d328887de41, 0xb901a94896ae30f7be1ce55bfe6bb38f575816a1c149412550474396e30ea15c),
  (0x99f2630b1c1309fd993d288053fe655a5010b5d0d73bfd08e5af0f08d8fc3548, 0xc83d306bf528320f326c750cbf0092ce14e51ddcb840784bd8677bafb4e3b76f),
  (0x57c824aff6dbfc28207ccb2ed669e986d30019f96b703235c445671577d4715c, 0x0c6638208b94b1eda57acea7c1e6199a4a557fd49bb98fd2f0eb532fd8f92a23),
  (0x1f50250a8b2e074495770c1107bd9cebc7741c970101bd459b42be8ff83a9266, 0x7e8025b3c30b4d7c88c961489546a897c65b900e15efe59af762eec81477b654),
  (0xf683125dcb72c3121fa0ba4ef2cf65256fcb2caf9ccce8bdae4065ef12045cf9, 0x05f11e11eef649a5abd9575298fb3f0767e286776cd8e830a01da4eae312410e),
  (0x64f1f61ab9e694624761fa04dd15afee3adff697c77d1345ba47faef9d3472c2, 0xfbb88d5016c7fe79cd5f896758cc710d3df8ae8fa1133dfefa691fab9bfb9093),
  (0x0b283e833845072a64c78a48e2278ee47532e807a8771c4f8e011b4ce88c50d1, 0x90afcff71feb829d38f0adc2b1a8908eb96e96681868b21c98a6f29149e69274),
  (0x81382d0bb8996f6f800e9af97c64d509a5a80602def048899915a383210b0856, 0xe4fa1870f8ae8736784c5fd9d3ad62ce46c63b324af50182490eba5381927e27),
  (0x570bd00e00eba7475e2645ee163c168884ddbe1adb235c654ec9d0bcd7466b25, 0x9c7d249d5561d2bb3e7361dcb66778b192fce1bd6c1d3b68fa51b629128bfa0f),
  (0xbac38b3ceee66c9d5f9f5154f083df051c83c05edfd91497a40b28bf0bbc6229, 0x2896ef104e6f427252fddd867812aa66f2ecda8e8b0a8416f71db7e3ec0dfcfd),
  (0xf4a0885aece5ff577425a2e6441cac4908249fcd49ca70dbff27186a0fe9a745, 0x89895a501c7bf5bcafe67c9d4f2c9a89f96cf7d61898d1046e2cb7317d7ead58),
  (0x323b9b36acd532b06bc0de693f08442066497eaed15f03e6dc7cb8e5573cecfa, 0x29369a44833438f2641406bd2f530c789414c40b2d65ca0ecfed390a0115a3c1),
  (0x1ee3e9bd6876214ea6f2f2695db01e54e6da0fd2b9da921e996884f5903fa271, 0x9948148780b5761442f32a6c252cabca36d254e48e215e04a26e181ce27a9497),
  (0x77862d5d3fd4a53bca287b573491b64b0586958011a10f094c4dfe6940d9cae1, 0x639531fe778cf9fd10393f19cbb650a62be30bd171c5268fbf94856e50349126),
  (0x37bbabb6501901cd47dbe6c20960167fda38aa96af8c126e02556a11b2935359, 0x4dd9c0961d5fa5f0c3ed50959d9faf0cd69a51757a1a1dc6b6e979e02c947778),
  (0x559cf5adcbd88c010b5765467c67f03e8b1cac167e718623a0c4304d64f16ea8, 0xec6e2c5c4f31280470bcb800326e89201f717ec1a1228c92074877bb0e2af19a),
  (0xb77eaf4c36d7a27d24beecd87be7b6b5f12c09492211f62a426aea7d3fca4752, 0x7b6d88c6b6b6fc2a81287ef04ffe2bc4848a83b0264eeabe154c2781fda78fd3),
  (0xbcc1badd6ea9886e72e65bb3212733234b93dcc38b916cc4805fb947ce417d99, 0x50e6a5a495231489762fd2d4a6bcf1f1a561be74c18ee1e40e2230114bc5ee85),
  (0xbae9bcf1971f3c62a64e2d2e8c446a855c098cfc5d7dcdf5ca96001fa00b500b, 0xbd4f3fa41ce3b21ee9f8fb47ccccf4e38ceaed6c4bad46434ec226838435a2c5),
  (0x70ccfe8dfdcec8e3279ce87b8e49e6a9e28a37dab536c66ad79fb110a3db3292, 0xd8ff50ed91e7e0f77d7932aff82c12ab0f39d60eaca9a3982193e4e03ba464b2),
  (0x0bd9abbfa57f5799e74d55c8db229666c726cf250bf5ec74ea961058fa28a7e0, 0xa32a8b5e7d4b72808e0283fe36a8bde2d9c65fc30c52f91d7479ef074dfc47b3),
  (0x0db8b22b1dc4e89c562e8ea50d780f610fbb3512dcc9bf286a677c6112e83233, 0x5b47b17f5060824c4639075dff09c91c8c77d246ca57113b0a6fd1fb89be0144),
  (0xdd2b6170291c68ae6148b4d0c5d58573a1343520d0cd8eb058aea2b016287b52, 0x5061da3d25e6de5e4105d4a57217d5835f946d7908c4ac10a61b39291da3b3b7),
  (0x95057a8e6e9e196ea7507fb2731a2ee0f12195e136f485ae3113940dec1b4991, 0x77f25d90f4bac8b8caf3c581b300ee2b97dfbb3633c60d15a3c2c9112e130136),
  (0x41f37cbcfa6f4ae28ec2f85ecec8a161471d62c0e634288cdb1c4f986d840cd6, 0x190426192a8d47c12c6a3fbd938e64467a7bd33befa8985b6793a20f4b709985),
  (0xb56fbb929f68467062d41ad4613baa9402acf1689d5f1dfb16848667cc36975f, 0x81b7d9be5d0e9edb0c88ad1b3df18b977b99c65f35489fefce610d0de9e40569),
  (0x17c728954b327a7aa4fd666bce356ac6f4b5ff9085691c49d85218c0c716cc0a, 0x9283d3312ed18ffa4cd96442d8f448e8ff71530e3301d34ef93d5085da6be7de),
  (0x5b9d6b1b83b13632ff5e3a9b179be0e5a716964b415763354d33dd992a849870, 0xce1481a3c7b28a3c300359620b3e218fc9dd95a0637a46603b8bd7d4a52f313b),
  (0x14af860fcd26d2b48e525f1a46a5122924ae1c304ad63f99ab41b43a43228d83, 0x82ceb1dd8a37b527d3e21fcee6a9d694f51865adeb78795ed6baef613f714aa1)]

/-- The rows. -/
def rows : List (List (Nat × Nat)) := [
  row0, row1, row2, row3, row4, row5, row6, row7, row8, row9,
  row10, row11, row12, row13, row14, row15, row16, row17, row18, row19,
  row20, row21, row22, row23, row24, row25, row26, row27, row28, row29,
  row30, row31, row32, row33, row34, row35, row36]

/-- The table. -/
def table : List (List (Aff 4)) := rows.map fun row => row.map fun t => ⟨BitVec.ofNat _ t.1, BitVec.ofNat _ t.2⟩

end Verif.Ec.P256Precomp
