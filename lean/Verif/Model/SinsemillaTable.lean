/-!
The generators of the Sinsemilla hash. File paths are relative to `/repo/halo2_gadgets/src`.
-/

namespace Verif.Gadget.Sinsemilla

/-- Part 0 of `SINSEMILLA_S`. Models sinsemilla/primitives/sinsemilla_s.rs lines 8-903. -/
def part0 : List (Nat × Nat) := [
  (0x0db5218be6881f0f1431d4ea7d4afc7b29a05bafbede62b55a91eb912044ea5f,
   0x2f0f40c2f152a01c9caf66298493d5d0944a041c2e65ba0117c24f76bf8e6483),
  (0x211112b4b3e19518c8fd33eb39175404e67700ca24649b8fce4ae33ea108af91,
   0x06c5993993adb03ba38a3e79cd5a35feb43c744a670e19bc1d83c293f810c5ee),
  (0x25b32ccd49f925a34661a4e2355b9b33f40cb3334b5411c022e0c475a18f6d24,
   0x140ff2ba70d0692c7d53d0f323b447114be1ebb9f945ccd2a67d6b8db8fd9757),
  (0x14215a48e11832c960ff465cd02c701f6539ca12938b1826a5faef0f0419dabc,
   0x10666957becb884dc711a0b90b5803bd97b63b4b53e2ad56011d5d3625ca36dc),
  (0x315cf93b9e63151c9ab9b595d23f059f0e948b52f73861cecd48cef64bed0936,
   0x2c54c0b38dfbad402afb9a52d04378ca81ef1386c070a51de2577684a31c721a),
  (0x1d7451a57e925ec563c5542ebe6c3ab794fb57dc9d31389b1e629662aa5a3fdf,
   0x0a4b513993477ec7c49c1472164b6fbcc086048c4eefc0dd934c1dc8aaca454b),
  (0x0d3d3c7410d446683c80b5f824a75f24e055272f8429ff1c7e7ccebdac44118f,
   0x2b94e7129758334fa02e318623a55ae9126861c0de4f098279eab21bb52255cc),
  (0x197efaba74910b570864617cd666062c6283df714b0f9b180e77383ed7129d2f,
   0x34d95547d6e956a98df56a97ed99d31b7a8875b5de2745cd85b8e2cb12fdc127),
  (0x305ad0e8b11cee663e2911abef549b47a4167a077246418ed21cd2926b24b055,
   0x3e2591026dbbbfd882071242c3b734a412a20ca5d13880d69b3973cfa5bfb938),
  (0x2a80ed20aecc771fbc37bdf147663e61df5ee6f15b663484f6bce3626b4856be,
   0x3bed9f532f89c873db784220d080d1ae677681a139a944ebaeaf58cd40d9d753),
  (0x1169679d516b0f523e0bf886c5633909e5dfe62cbb74b432a96d351c69e73b34,
   0x24dc58d846eff85dbe1ea779988f4fd377d803b3afe83912447f26483a5652ee),
  (0x0a645164e0e0d1cbd4398de83aaec9921957510c703c5765851dc62ebc875030,
   0x153fb63d3879f1827e1f87b7997876b10c89d7eea548c2a4d768494c1aa6936d),
  (0x05a91753a68b76011325b0e18d7aea0a7716f57c193a3df2c565061942a83439,
   0x1c29c630347e9508d7096a409799144e959fe764a3f2575f2443231626bdd43c),
  (0x25e334b5cec9354413470a8d938ab6912c1a403472492a59e8436f461411e72a,
   0x016064db61592474194cd2502d8084b2a40d0761a4cc45abcec5d2339cad4b3d),
  (0x379c2bd0c1909c7e925231c1bc9d6a66252859878c8825abe2f065b525375cc9,
   0x11a9c25499d59f1bddea123a66f36e40430e1e417b7383f0a0fbefa763759430),
  (0x0c6fc7b2d3656f824b41f6dc4801f3a1c0a3438261ff61c60b5a9e1e862eedaa,
   0x2492a76d96dcfe8e06d5b032d1ea0eeb589fb4787d548e5ff30d50e83e603bb5),
  (0x0c175d453bb50e041965c5c3f9eee6b7c3f4ced65ced702207194d693a4fe5d9,
   0x106e3d4f2d012990a5925dd2ac1ba08a9155bdb2213a1ec26e28e65c02a8979a),
  (0x26e5eae320edb15531f89d9593135e050acc0135db3d9c802af55769718f6d0a,
   0x1d05882acd144b0c4bb1c3e60f0bc0401e63a80a818c5374d75bfdeeb95fd1c9),
  (0x310d60d714eb00d992109733af81040742300755c68fa5497ec390f25e395b94,
   0x3ee2559ecdceec5c4087e7a393121fddb1c04053f900ef43ce0443cb4410650a),
  (0x1719048109ecac8dbe3dcee51eac81878ade17eabf180624a2a0b2bbc709eb43,
   0x12673ac5b9fef8c587f1e0984f0e1d4450a8df0b570a193a2abc973acc15a05b),
  (0x1289d2229c3719c60263da472626a5f0ccbc110fc9829287b461d0fe6d583369,
   0x08a7e5e9d4ad1e44c9ab26a3a8a3b9aae7b6843560c9f37e7f84d109f8696212),
  (0x08dc48f1a91c222a176ccb975e2eacdd1bc28f7af5d8d663d657d70e67a6cffb,
   0x21f40941aa55b3d09f79f114a1f4083a94a19ee5c270a217c6aa0ceb40b6128c),
  (0x2bde7809257f2d02ae9dc0a21bc8b85e95495a9a5e2cf52184c6e7037113c2c1,
   0x15ac6d2a83e250bdc1056823d929fd2a9be7e6083d7e876fa114c0a6314ed2f9),
  (0x312b61281ab5d033e4f4ac713d4a95bc48e4f1713c9ecd26b0fe9fd5a421340b,
   0x2e4f21bfb05d45597469c0b3e23c53ddaaeb8090ef6b9390405bd400afdb5d9c),
  (0x089b3b7f8bd4ea0875ae565362afeb1d6c78ca0ab5482d27a0bfd82b76122e84,
   0x3708e83135ae10c4b32f6836d782eb34a06231d2085d62587fca3834c6702579),
  (0x014108ac9ab63e4f45bf6d2ef7e6fe541119b3b5d67ca65f9f6dc0146c05c7fe,
   0x0096be836417c3ce0b459bbebf56d8df3d4ea9b8283ea3f257f936e7a514d173),
  (0x2ddaa8b1c70d47989b666f39805df26e007d0da959a18af7bf847e6ea60a1e10,
   0x203bd5e43544e416cf425d2397a4d0d6fc45281d665c435f8afae4a121043215),
  (0x35c6b4b27ce98c849bc619531bc6867caf9435617ca8fba56355a342c769b991,
   0x2f0e4cff28855660dfb1775df512925e1e36f404106911a7358b52f2aa05d0e2),
  (0x08408d6d792b1bdd2a81a1f9157d0ddf63fbf9d5aff552c29bc645aa659d394f,
   0x149b86c7aa0a5807df6e7ce67c078b91580c2dc1b2dc4db06214c9e0a4426fed),
  (0x3b7d352437fbddaedf463c90d34d85db7e11a50932be92a22366fb20016ad15d,
   0x30e1da147a31ac8aa0810c5a71188504eb767a6049bbfd17d70178a2e2e73b2c),
  (0x119d6098c1dfc009e77e3c500e84d1fe61d935a7da7ff9df996c1cc379a305e2,
   0x0dfefcd8c7a037d2cb02edb727030a11e3e45f6b7f338aeae83c68f60bacad89),
  (0x2d85ea371450e93634ccfd25ee0a24a4fd35f750fc1b140e0249e1efc0c12e3f,
   0x2fa0f1dcc5606eadc8b20a67de55ffdd1e86054a71819a98ea037e877076c6a6),
  (0x0d65ccec99ef3d51908384e44ce8c260c47e869987cd0c7e149d40588269142a,
   0x12962805bcb25e3d69c5cc43e0993c2c736987ea5b1260ce3d9fbece1b95bb5c),
  (0x0074778c62d80363d79d4eba953af0872cad5ad03b8758f2fd0f79acf85770f6,
   0x0776f4aec6cb4e8509994f5136f1c414fb6964df389fbd6c4d5343bd75b704b2),
  (0x01a9d4bec204e8721f05e00a14f4b8456fcc246492c302652207b16e8cac9dc4,
   0x03f77f1f49b918e644080885faaeb30df741a8a238ae9967f78369ae24fb81a8),
  (0x169135f3c4b54f7661c800000ba86506b299c606ca3b197fad73e083fd4bc101,
   0x03f1c42bc4c585ff86b0495ec47b3f5034f016e0f86c0e2d876058ceeb92e28c),
  (0x19bae178e635fe138e088b5d8994c20b8d6dcb5b18aaf523017d94b72cab798c,
   0x3acfda94ded9c4e711438112caa2afc49da4fe0e635c7e33ab2784b4994a0119),
  (0x2527c64e053d087cdf0005b6e6abd61e36aaddcd3238f0e6bbcecb08317a55bc,
   0x1e27ea7db509cc96f6dd57ced46528bf55a3f9acd4f4cee16be848ee033a68ef),
  (0x34a9358a32a8ce49a936924b164cd8822a000dc251255df6e5bc12d995164280,
   0x3bdbfc5c5aa3cdb8e3256cc583ddf0980aa53e8825f8a52160e877e4dfcbaca2),
  (0x289e03a5ed1f3b07ec05bb17c4feb28303c04e9a6bd653836d95f7eaea3d16d8,
   0x0c466c571159224aa995cd81d04ddbd3bcb7da924e4989482b6ac52ffeb17686),
  (0x201e25ea427de5f344a3e62c1ce78cc2151862a2b7990aa260939be7a4d29f0c,
   0x31d468f637a7026d2c600708e61e5681a9bab5b39592712658535ee927ff6b4f),
  (0x275f7736734d27fe588fac0bd601fa887e799f38c361ed8797ec2bda32f927b3,
   0x303047788312b499ac7de04cdccfc81c46a0a23dc42301eb64268a27c545d9b9),
  (0x0ce9e8039aca842fe68f139ce3e6847bee63c9c26401e1ab9491a14632158028,
   0x2d993912f127a6e4dd8b8c88a16995673770bbd0c05ef8ade09d04d125c74609),
  (0x08a075bf2f3f783fd7b476dcac74a040f7a013fe10a19fc0e53154596f63dd08,
   0x3c214bf5b381920461684dbff2db9c353da6e1b65f7f19771962320980d2b200),
  (0x2ee6898e6f251e50ff3b2ab565d830e8ed827429e58b0e5346fc698de3058e9d,
   0x22a07570d24495a4fc32280969069bf6a84ceb52339e90832fea1665b7787f9e),
  (0x38ec640b0d84abd2ecff67980a63b4a7a9ad41fbbf8626c08b2e1430028d9350,
   0x1e61c8abab5080ed74b04c685377a26238625d42a3182c13da17249d9fd9ddc4),
  (0x34a746a8736d3635d20c2b5b3c999c685b427e0212d6fcc392633bf49d92db8c,
   0x306416e87ca7c73b27e83514854d3b7323624c044eb0ddc2484c9af19fc07320),
  (0x36d691abda052e5f78530e2bf3ff968348f47f5efc0307ae32d4110dcc45356b,
   0x01acb0f3614fa0e40a897f1c02e3d7f54a4c5917f2797024bedbda775302ff2e),
  (0x2f15eb039398a90e633d70fd31935850d81f1aca41bc54b44ed324c0f046d8ff,
   0x029063f6092dd3df6ea625edf5ff2dda073c911b03332ce7e7be44995af737c9),
  (0x26ccd620a8dda6be146336d5403d329000fd36e3678b242415f2260b7092c6c1,
   0x197e4293be61e51470ead54341831118be50149075ca089424d605f8d93c5bf6),
  (0x1fb2df9c0084625420ad27f7867723052aff79cfb329881f9b5032715c734456,
   0x35012a188aab9aede5a0ffd13d7aa3dcee75e9bd87c71d7ed726501c633cd28f),
  (0x1e691a87f24b4f92c6820c7b8b6b3c111a6f44fad126caeca5e33bb71725a038,
   0x17e04dc9ffb095b4885b451acc3e7b339ed461f95a170c8aef4bcf4fcd8dce42),
  (0x3d922e0c6fcd9ba68109bd0f756329f66055abcafd65aa29e134a4de1af0e032,
   0x23d6dc615576d09a9cf30d838bc763f18886223cbe3a44daa51db5ffc90149ed),
  (0x1560a3d502ce90028bd2b47fe76cd5ab982d0f03434f7eb979e2836e2b2a990c,
   0x22edbcbd725d71c26941bbbdce8a3cdb0e6a15a2265a5ca738ca701d79f6f538),
  (0x3850926a6116f9d51ae971abfd1a3f3edc45c0bfcfb3b708eb6242b49b2b17cc,
   0x20016ee8a7ee6a673bb58508b3d13894ddcd261873981ef3db4622f999d51a3a),
  (0x1d6ff561e1bc8de302b8ee49e7347325f056b93022e3f9ce40e7fdbfba4da620,
   0x3b2ac06939e117d14fe51687c170f2ec22f275da0766031db84e027a8189369d),
  (0x24bb0da6d98e430cad9ab2d40863083d0e3901019c6f6b1a62071eeb79efb20c,
   0x205f0b78f8274d40df5927ec4ddf9bb497f0d36b389a5e23dc8e755253282784),
  (0x2f8e652ca28ecaab7c6c198f61d359b6ead1e981b58956ef01cd96f6680d43ce,
   0x232882c11d674489f8c636eaae296dc6c70acb3245200e27f893e5c8f34a0ff0),
  (0x1adb8e3958146bb6249417a028625a76fd763124e97c3785d48e2c4868be2a7f,
   0x27bade97ba05a77114f3b6909f60efabc234101f038dccebc5b2a93333d82271),
  (0x32c27af2a58150185f899340440804e2a8394f118db0db873781a814a4545341,
   0x05c94781d82a2a1559c7fc070d03a314f3caf426f8784d195072470a53d84521),
  (0x1703d85890b01ff2b4d70972795ddc32c3c19d74bb05c3fd80d1820570210e5c,
   0x3e185f4bf046df1213acce4c31289a52d8f00c72cf1d230648a1ba30d95b8f1c),
  (0x25d2f86b25f603741fb98d9195ffe5802c1fad8077460b256fe575df15be5ace,
   0x360ad0afc036b6ec268fe3542b01c30f443a5452103d3d0ce56ddd9badaaa04d),
  (0x0ad0c1002c7ff83f2886ca9d7d3af21236cd6c6c65c09b4dd5be32197358df23,
   0x3e323f87fe7e9cc8adbd7dfdd32eb48190c21c88c78f7abd965c3680c268ea30),
  (0x3a947a7a8ba8fcf3467d21cec0a1946ab16b54b4356cda95a927c4f7bcbc65c9,
   0x17605d233ef41cfbfc8f90bbfa9ca1d521345b229afada8c6ad5c82f2e6b802b)]

/-- Part 1 of `SINSEMILLA_S`. Models sinsemilla/primitives/sinsemilla_s.rs lines 904-1799. -/
def part1 : List (Nat × Nat) := [
  (0x2101b97439062e3a7f5c281c0a583d122fa772e67d28f226745b473684f8b6ff,
   0x197f86a77da6fbe4fbd4356a24bc0f49250ebaad119d1842e6161109cf4e3a62),
  (0x19990351202f4b8157f919319550a0f2caddf679760ccec15078ccf065b4a022,
   0x1965465fd2ebc138640a432873136af7a80af1450a0fe90fba4c1093d57d9f32),
  (0x01a517236d7d92c783549fe9438640f68c7b72c01499bab54d7575dfd86d6ffc,
   0x2b2ecbfa0c185cfa39dd1caf086df29cb87bf25643ee366e850e9adf152d9d66),
  (0x1177de987417d289164e048fa6a6a1395b6620fb1e782e482ff4d2c32c0cfb5e,
   0x1565f32ec1244d166e54658a936558d688137018e47c76684473f63c8b6396f8),
  (0x1adeae43961e58b42c266e073920103507838e28f07459fbd3f8b046ad6454ca,
   0x26263bd7d9ea399752f78881bca80ffe029741f2ecb8bb41cbac922597cc0885),
  (0x02a11010c364a8ea249ea03d0db28458e0de2e2fe88321d9239bb01c10ba15ee,
   0x37ffd622b30ba504f00a642f04ede36bb9683e0edf8570d0bd6366bd80d3bf55),
  (0x199125d9b76ce739bec912d1386fac0793e04a16dd86733bc31a07a7d2f579be,
   0x1afe401a751295327e5b0ef8957ebf8daf6fc9c444207256976a9a8c0d17a731),
  (0x39fd5ddacf6bead40091a6fc3b5edd573a1fbe612e2694e43be4fa656613b0fa,
   0x19ea636b25ee6d684f3bc283f1c59415303d5afbe1b15c24f61e8e10a02d938d),
  (0x3206be8ddebbc71c29cb7fba097010003338649bc8f824162f71d6ff1108c379,
   0x3f56eb3253df1196801728af4cf38a59b0f3243cbc1b97bc4797990c97ff3dc0),
  (0x1d88ea2dbc4c95ae244295dd210c66cac2e287f5f9ef0a825b6634746e092e1f,
   0x0bc9988e3ea335e31ae6394e286100bf4b5310d67f10e971e19d8eb8f8613356),
  (0x357d7b0dbb96a87f7c0bc8f5a91d631be8caeb5c5b329708c3beadb7c20ef2de,
   0x37b5a0a317326eb973ff1119546e4400a1766fea071e6309ad736f6de6f6ed85),
  (0x392233feaae5f4d86fae9d5e77f77282a3db880b8ebde2f871fbd7b6ec81457b,
   0x1617300e91600a2b78b3c37a9d5da468343de72356d1973110db938c736f6d80),
  (0x26f1c98a7a66a30ec371237403fe9264a8c836e87e8cc0e5424a88775bac1aa3,
   0x36e70b904548646825cba902d51ff3da3eea1d88887de03551a3b36e0db244d9),
  (0x21d27b622b7ec84c050929be1d07ab6fcb71a0706ed115212728fdb50b61d1c1,
   0x34a7cab898031842ed99fb9e9ce06d84ae308c36a8e16416e13a1cfe7ee0cf80),
  (0x183c3d98886ad987bd6525e36607150d834b28061e440e87fdbb35ef3aebc28f,
   0x1de16b8808f568f0ca3280bdb0c707f88d2ee783371ab957efb2e06ebf3d5ba9),
  (0x27d25cca176a5ec87a4ba8abbb170ad5e2106c1c189c4147786dbdc0924eec5b,
   0x346e0709ab9521c11e450633f24bc870ffe7d383bcd5f8c1bccc549c6a1a38e3),
  (0x1083dfead4be6b073ec6eee4114989dca965c7a3dd6c7e355e73f44f3cca5a3e,
   0x0a2d8f78fec0e925507e843f4d68c0cd7ace974e804561c6294d4b259ddbcf9c),
  (0x3d96e779a20675e22d14ee3dc962e1b574edd93b8da63fc5f05ec78b2d6db205,
   0x20ec4fc7e584793d76b9572fee839cca5e67731c8a84c1e574b020fc244253df),
  (0x21935e498cdb4af2c40ee12a9971a79c2c9e12add09d53c9618d3a50bf2f9c6c,
   0x3339a9d2a7ced5030ed30fc8f6f18eb091b6ada67e0644fd526da47148470d71),
  (0x29af221394b4175187043936d76c17ad1a976e48cf4eb89f50836ba9ebe2c4d2,
   0x264720f5e20298cb8937b2cf3be65258888471c301ea94bcf644cd107f0950c3),
  (0x1ddf0c2abcd6126cb9b790c3f913c375cc55a6972f1e750b95c729724e5a6bdd,
   0x04af6cfe6abe1c3122e85bb54a2c2e77af6af70027e28cd1b2617fe7e51f68c2),
  (0x252308900a38e897a5ea74df1d84ead90155d4adba7b31ef8ea68c4ec05fe2f3,
   0x3e810b63687a64350daf49f8715836fcd107d7432477f8ffa64a883e11632151),
  (0x3579508c8c75a1705ce795e9417c4b58eefd129a2f23fb16b8e8f1d39d831327,
   0x09c4997f9e5bf623f49224b99d558ab8a37cb44de87eb515e1b9574ce4b25e71),
  (0x2784a2974957e70e54de851be7091a0247196aaad39aa8995010390513eef907,
   0x084bec81b4378e441fd36af415d9091fd18930095f27f67824eecaef9885dfab),
  (0x0281e846acc087eeafb2ef1faea3231be3a0e81bf084e23cb19f74b4e4934f13,
   0x3b005d525addf883d2858c11b9c5280cf8aef91eec9e59d0d975d00f7393542f),
  (0x005a5676d64201e085945e1abb14af22aa528c9981e3ef9d7b6698eae221f3ec,
   0x115c5d9017e75c6bdcef30a1fffd6fe44b9d417243e901cef40321aa0a31021b),
  (0x3592dfa2ef738fd54b3d53567f34bb41e087424455be9f05b50ba31a29ee735f,
   0x2744472c60b3f4f464f21e18e2a1a18bba64a1585df4da515eeaa2b45eaaac7f),
  (0x0ea1f3599f7d3d5ce581d4cf1cbdf93becef342e138f55a91ab77d4c5a3ad076,
   0x1cd7d9501f7efb20aa6b2e5438b5a5edc8ebd71af44f64e0fc25aea59fe3c15f),
  (0x12e7b66e0a999a6fae06dd713e7cb7057c8c7050bb4bc76cb92ccc75d2f67ef9,
   0x07c53cd82f6e3bc17311d0f16107cabaf2338c5cdce63624ce73174c46de1a90),
  (0x02154cc296b2c9058c9acbf2ee177ad522eb3ab9b8f2c733679f68cb0663880c,
   0x1c40fd231fb7cd694964d682c5ab2e0edf368c201ec41690f9f87298bb53de4c),
  (0x28c79db647393f3271eac445814ed86d991d620b35a4b56521198bfc8956b75d,
   0x131253c61783912e8e1c431910acbe73be45fdc51246fc5014ce2060ae17f113),
  (0x37d5760d8173256beeae4507b79d6a0e075923a21a64428a026d767e1005dd37,
   0x170c0df25f281a903dfa70296ec1d23826a0b50e67312f585214d99e936f56c0),
  (0x04eecac445e373c9081430b5220c1e6ef577281606d11af5397a3bcbba4dbd68,
   0x070c35d113a7073001d431ba19fc51bf680ea92beb546b7a3de6619d1a4f65d1),
  (0x2f5b368e95190487207bc331727a65f59227b80cf9ef6317327a43dae34bc50b,
   0x216591e0c300e0b9b7166a13ed9fa1301ab3944a4c78508459daf9c7044b8bc1),
  (0x2db9f193d5c5c9c10a4a327069385d8cbbd213a8837b47445fa91288f21fb95f,
   0x04eaa03b8152e3168824c7a3915e035e4ad24d15ef54060e7bbd98981a1a9bff),
  (0x35d6bbce17add8bee14d125202ee8806682004a7e8062c61718e5117e211d00c,
   0x0d2145dcb049831cd142d615c2b2e50a9be9bb45bd5dff546d509095573e853e),
  (0x1144091e1eb08134776f85d0c89d75c44766851394d3898b8fe432aa357754fb,
   0x1c0982387bf23870da240bf37b5d659eaaa71f19dd461c3e398f9036dcb49364),
  (0x0202816cbc84b4fa062932a7cec74b585595d3eee18737f96570c993e75fd9fd,
   0x1781323b74256726f499343bda75dca6b847f27142f450ee1df09e9c5fb9da74),
  (0x11df8818cefd7683634c476cfbb71c9673532959e87dbfb35aff0d377f8851d2,
   0x27dcc86842a3d6b84b190f39cf3cfb305c8fdb44165861fc35acfac44577543d),
  (0x084e1a66ed1d9f9a53898211d9a1148bed63bc8ed67e8f0d706f36b5bce16334,
   0x203819890b482b10e2debeff8d23430654c4d6648f950861a9e0e92493836ee5),
  (0x09ce729b7917ae580be8a9e3b4bcf2378f31b38b3cb77f463afef81c330c8ad7,
   0x10741c11976907aba545b8ef580a79947b036744a3f58144d199ef8647328de0),
  (0x2b43cc2ef8d8f01ee8ad091d8b107f75d4e75a09d52b0b3ecc3dd69a86dab9af,
   0x012f2b798f53056f72217a99120c79111006923c4bcf285dbd140c51b03d0f63),
  (0x1a145dc797b5eb4c49914b4176f52b160d5ce4d6059dabf80beb949fa313486c,
   0x0a0399e6e2c135e88dc1f4ace7f640a1b72ed0018b32e67e9b0afb2bb5fbdc02),
  (0x004929ba589ab1ac285f8587a2ca3f67c691a4405284538a24e53cfc0a853bd6,
   0x174001a4cd80e459cdfafdf593522277034ce6c54f24d01847d00f51b59e11b5),
  (0x082ec56165bdc5db8cd384d12d3af616cc074f118393de4e05f2fba688e464cd,
   0x189fcaa56f47de49577aab4960117b6fb9d485131297820b0ff4d463cdf61438),
  (0x2d4d378b8ab70f4d5f0cf5c7ac0b867352b3b4e7046a0ca26a66f234459d9c05,
   0x043309e4d57b65e196a6cbc769f87c7f1db76493b323dd0c25e8c3f3463b7de3),
  (0x1b0ea9cdb77eff994993044b77dd0400d540edc71ca13af1cf054d04c520e0a0,
   0x12701769ae736bcff3d3938f2c87773472abb895a1a8f03d69280ea8321ccd3b),
  (0x3ef55ec216b228bfef8bd3ef5bf1662244185ba638bcb0643e52a2f0ad5fa12d,
   0x13287a30a3cdc18ad850681c85cdd83a1ecbaee5356e0958b82bcb14f2f49c05),
  (0x0033a85c5e3e212dbf161febc7042e5abff3efc0f5e7a3d576c91531675be4d2,
   0x33dd2f1a9d4644fc53afcd3de314e24b4c07169f2f858811b3fe295f735b1607),
  (0x3ae0f34440d299f50bd70aa41196808a26ff120832bfc7958e41069697e78171,
   0x3c74bb6d465ee2eab3695b240bd9aeba460366a7e898713f2474b70b2dad669a),
  (0x341f5e3d2d3a415beb3126515a79f178c38a28e1fcf3fba96e8942a391ddc2ea,
   0x09b222122dc8e0432958f891d37090550602745a0fb36d337449ce64375e4ca8),
  (0x3d3aaf95d02a5c260f167e0c216fc51468928a5509f71a3006b4c6627f861a17,
   0x3f656e0cc7902ba08c7302352ed73f953728ab5bc9a6f755f1df9dff43319bc6),
  (0x2e85df2d47238ae799fbf22c510a2be47823029e72a67bb69f455904d0623f0a,
   0x3a60fbcda37c815e7b1ac76dc4020f49a45e75ef95df3e94327d317be87866e3),
  (0x21cccd3f512f6fef5f650aee69a33aab0d37fdbf7f393cc817dfa08ee2a4a5c2,
   0x261631c0e0e8b1b3e8695dff4ac798dbc62925da839b57035501f47b19343bbb),
  (0x158d62458d4037b2d5401aff42f4c233afd7bf48d6fca4f111b87af99e0027df,
   0x3e879938388600a09148af15de60624c6c6d2aa6425d192e8b6ffd476243eb36),
  (0x3a665f24c02baf59619f510229bc739b93d83c8ce66268defe072c77e4e1e7c2,
   0x307f067dc98e96366b7d918d995d93e67731989573811af9c557f19858c8a876),
  (0x0deef81a0f27b4817f1145b874ae62c788f2f299794f3553a43654756a68c675,
   0x147a89694b2be230caadb9231a1dac82e8105d2c1b5e0447993e47cf7f5ecf8c),
  (0x210099766171438d24dbbe73e152f27dee04327fd719ea9b4723e366ae1e6184,
   0x274f221d771c400c7b105663ae11ea5eacb18986fab0a084efe48e4e9b941267),
  (0x1a84b9f14ad0365d78bae557b388ffebdd0563de2eddddc45cb8179086573d1e,
   0x376c21b45247997fdc9280960248333a57d3fa91cbd60cc8d1dabfb8e966236a),
  (0x193ee5dab674a49d0573d14d1d7dda4f2a5c69e905fe854b13f0c07adc21f7b1,
   0x1b16b23703d7e26c69dcb5360f5bc791fe21aa2e52a5a7937fa174ca714a4b90),
  (0x3589722c8ec240851aa79bafa2a05e731aa0aab426661fcfeaf6686527d4b8e6,
   0x3a16a2b328cda978f61d1974ab2ad20bc20b63f7728abf5741420491d747fb8f),
  (0x379311e7db7715e7c7119e1f1319e977504e93b0cd03ae26479a9ac8e884e011,
   0x2ae665e48ad7556d6c92c4fe9bf695a205b9b52fdeca50ddf05bef486578ec58),
  (0x2e010c6cba9d2f9e4be57bb56c37e8e884baf7e6293caa1d9418f0073a115039,
   0x2812c19231268e2a789fe67bb71fb6ddc2a7a868e4daa692b30c63c5793a1373),
  (0x17150e76b351e99d3d2e3c47a4bfb5a1fab695863583cbe28a3e8b6dd6fbbcb6,
   0x27cfdd880836c8e9d1aa205af5ac95701f2fe64ac655741c2ea822fa65a47757)]

/-- Part 2 of `SINSEMILLA_S`. Models sinsemilla/primitives/sinsemilla_s.rs lines 1800-2695. -/
def part2 : List (Nat × Nat) := [
  (0x1c9cbe3c6a1926bef73d1cf4c77a0f4d80824fc1a36496e27d305f29822a7979,
   0x172f1a6dfc32d9cdf61c06f8b5d6c22b09d0a290baf6e926aa17af8c1c761823),
  (0x2846f46230cfb810b91118033f67cde3083a269550be40d25ad38743b5202fb9,
   0x2c8fa4982e60e130b6c1652b7505a7d3f2c577fdb08b3f21e223b5e7e937c54c),
  (0x1f338ef26410ce2090a5c4157630fd2eecc100539407c20256bbe185417595f3,
   0x1e0457276c6abe28b31342d6a46219652711c42bcfc8bd251a3b54591a56b7d4),
  (0x320d78d37e1f9b51ada4e1db90f20928bbaf07e26d0db5f433f0122d1fc2e9d6,
   0x08ffa47d829776619c94aa69371fe117169746f501609c4d6d4ffe2fb80e79f9),
  (0x02c203badea276a19053f3d544760afbf4203b98aa11457b0eed415f7d551715,
   0x3b4e7fab6e355c3e0c6bc8b6ceaa42b5b58c03ba9debcd2f55d7024ae842a5af),
  (0x294258218d23ef2400393b64fd52ff04ce0f28093257e6f1ea9d81f86a0ddbe9,
   0x2be17ce0f798be8b94cd60e31fe83451b9db145343ab48cabb7f710f9517dc5b),
  (0x176a75e4305dc7cb7011a0b4c4c52feb6542046f2f216648d971ee8b071f3aa2,
   0x09e6b0ba013df131a8ee92a76a40c5878549cbf6c3d27b44b8fe680bce75ae24),
  (0x36a44d41d37a70e8ac1bb1a0c6e15c55b0c0b4110bc58a2db80b9e9764fdda65,
   0x1792ad2e7f54a000ab7433bd7e3368dcc57886869b58faa76a77efb281aae72f),
  (0x176cf1160c7f8ba76949e876d5c79010d3757f3d66c272298792f6ef0395a9a7,
   0x13e7375626b854e44ed151e45f97f6574118e09eac6cd9e9f0f5d8f0a98dc2bf),
  (0x3cefbcc713f631525a2d44142fa35a6c31398eaef991a342bccd3257f3c206d0,
   0x14ee4b77ec6abfeb6ccec0f6ef8f18cd5e20fdd544b5acc3c8063b97017e00ab),
  (0x3f76fe73c425d9396c9af1ed8acb1da45c0e61b0db10ef29c096223858dbeab3,
   0x0261f7767244a4d337ca88b81d3654b9c3f406de7fdcc54edad482e8b280556f),
  (0x1efd3a6cd255af789dbb049b218c3df8948b62a8c522ec9b7e1cca9aa12a8efe,
   0x0a590bd371bc51f0fd6c6887ef4d1d5325b76c86a75e2c13a4b50f754d650a1f),
  (0x24044c52546c2b5243d0528feaf911eb4f2d8b8d6a29f2d4dceecea8b8d0d650,
   0x069e153f9896c1302f85d005fa5f9b5bca6367129f506ad896c3facd1cf0d9f6),
  (0x0107e2e32c5f28f3d3c291e0d4a37a8dc7aa9bdea486649e686e82124c61d957,
   0x2d9b95a730ccea85544dc8f12e0c26f3f7b5854a710bf63dab0b45dfc3d7591b),
  (0x2f9448427b8054b45d4f47fe09e2e031bd2b2fdd7fd77031513d33c295ce56f0,
   0x017150c096daf72ceca2ef63714064225dc9191f2fea6b07df6fd665d36a7467),
  (0x114e412052f025d4df1a2072738f3bfd9d545c078137cd19367a1d4f87ce2858,
   0x2780edfe8a38844963624f99f3e8453b8bbd77f0f9499a7518fd28dfbf66d5ea),
  (0x25e2bfb10f32347791dccb3efbe260b663b27be535502ffd740230820ea95ad4,
   0x01f42fe0a850806569110947b7029fcbedf8c60fb4d1c2bbadc03a7139b4094f),
  (0x01c546957e3ea005a0bf73fab1a663fdc7d31ad45af50fc8ff2dcd62e596b4d0,
   0x164babe779669ae9c06e8e67ade6e79669863f6e07de7291efebaacf938f6779),
  (0x04e2bb36ec30315be589fe8a6136cdf4830f026788b0060b1c336e51b5278fe0,
   0x2adc5a8541266b6237c7a20c461928c110a1fb834287f5f4cde65cb593345bfb),
  (0x2cbd15f453d916a93a5f6dff03ac3c733a1e399e82de4dcd3932ba3542e261ba,
   0x08486f66b4a2dd55f8328c5a3951852b0a66a2d35d9f588c2425a35fa98d8937),
  (0x3949c80c4cfd3f85a83d57b4b012a211109abd0c31eb54f2a4c383803a4d9564,
   0x15472a0845c3dc1960fc0e1d252f860747f854774692b481fdcd3f0d1ef19e40),
  (0x059f7f0d27e901da65eca3784e880916d9d73041cb15f628042e596d48e57baf,
   0x079b64885c2d24f5d8c8b76125247b4ebfa172a67d4176ecd37d77d44cf8b443),
  (0x38bbf1d6ceac121c84a449e702e2280675e26aa8956b46fcd29f0703a4b56dbe,
   0x088dd43b636601163c2abd623e1e2c21173755f3b53bec06c7721a733066b6d1),
  (0x1526aa2df3e7515f34b4f4cd754b771763852d8c58898da4a1166f77055a8bb6,
   0x199cc2b021324b08c80403a1e3d6399896795ea4462486454085c51a2657e4b8),
  (0x12e567c2ec812f1d7fc801e8b4ef22bd6b03f9220b52af2ea52adb5dd16877c2,
   0x099314453f6841acc60865fefb5b94eae7bf0cd6a200a8cc03094014a4e8c20b),
  (0x0b3d76cb4f6fc43a5054c978d48eee12f07ef86ed33d296abfd7fd578b6f75d8,
   0x0858b2d8865c973ec960ab943ae51bfe1f8dbade22fe73f7bef7625a4eed90eb),
  (0x2dfcf1e1ec0c32fb6ac4304fd629f5a128e98a1e6966e7c0e2e43c37843a04dd,
   0x19680ec6a3a3fcb8dd2d2426687235c4cb855a9989cc47ffbd6715f899d07f6e),
  (0x2bee18a5f76d7e63d7e0dc4f58ede37551b5b451b97a0268a5abb96e1f941076,
   0x356248dae3893d81ac4f739b2e1f91eda4c2d30a3c19cf3bed7d80be441dd7b4),
  (0x009e484845e17f410a416e193265f04d81621c35b958c1a17c79fc8c4dcba1c0,
   0x3f423c6ccd361dc984af993377e51ade6312e11ed8e149fb712d9394ab35ebd1),
  (0x2f3e49c737a298afaf2a6e2ab08932ec538f3c4d6a0d4994f3716e567f23b1e1,
   0x21dd5ec151e4e1355ef09554fa27b6cc64f26b4c6339fd3dc5ebafbadcc318cc),
  (0x08d1cba665ee26df2a6c3775caaf400f47eaf27ab13ec143c382c4eaf9e54b3c,
   0x26a49ea4f1768cd3c1c332e26422084b812b4d724045d2f3fdf2f10df382cd25),
  (0x2ad4e94fac411335ada6bc9ffcd7fe027d695680fc7b82e5e13291ea94e59353,
   0x09b068674885ae310993e2b900738ccfb6f878df9c3a5c6af1668557d84598ef),
  (0x30a05ec490a9aa33f47cb827d4af8bcd147be22882c18e174161dea72c51a176,
   0x35f803edac2facde6afe34c8ac39628f1d9c06c6ea2d69053209f6db3ea8a841),
  (0x024340bec0e7c4f7109c99b164d5ebb0185a8a5557ab07c3be8ddfdb83ebb5ed,
   0x31d13ebc0bad4368e2afff627ab45f976f2e00fe1a1d1ecd6b5137b66b100439),
  (0x028dbb3aa2eb10e1ba6d64e6b80eaf43289a6cfc00e4613ee52c00c277e0805b,
   0x13dd55ecaf422820bf231285894e181d8ca819c8ed2dd4b4b5e05d84b2c2af71),
  (0x1d8bbee38e56ce7369bc3333f3ae7a7bb2e483014dad1d127cd59e64f4795578,
   0x1a6e4ed756c2b23028e5b97c3c9d1811e0ffb67042fd4d9062ede03293f36d8e),
  (0x2fb8997833e641c9a2d942ef1ded82b94e1404d0c831fc410828358e7ca18645,
   0x2182c4302f948f792c9570ae0ce366ac8a92e672a65c29981fa1883b1222e351),
  (0x1b4a243f2c409d0b64c58a11259d2d6079a872fae5ff489571371420909c4455,
   0x3520075cda2f93c3fb53ff35bd2b0ac1103cbbe48a2cd3c124b7097b3e5c77cf),
  (0x22c3ced3c628b166b223dcf3609976c2663f66581f7866bbf70fd61e7311192b,
   0x0426245e279fb9519eabc165478df2c2839c7a7412c7d85bc390e15b465671ea),
  (0x3ba9d98909c21586663a0d0e0f93711bef0f0954a0d118d6f32e587b08aca16a,
   0x291261a53c05d61d363439549a26d39143657c975d17881767b0fe6978faf39b),
  (0x1186532896918dbf3c8e7712a32361cb6c085bb98b3fb3d8b213f8dc16d94935,
   0x1e3b87b0e601473463c054424a3d9c82402ecdecf30a8b9add0f6a6fc3950461),
  (0x20ef355fb2b9b7a4e40c042b104717963d13dad288e3899ad2bffe223f25f8aa,
   0x100247645a6773faa3a9e4b59dce93f6c73d0faae860285e2584fc9005a44eb7),
  (0x285247bfed5caf056afae748df35ace0d311e35e57c3af04b44dd4eff05fee9d,
   0x14e69d5aa6ca0da412ea7b9377558d2c1064023cf1cec60667e1bbc404095959),
  (0x0f4227ce35ad602c4f711071c1689f44cd45cc95e1bb6d963dad64a141ccbf58,
   0x1bad5ff2bc753f5e34794bfbb7eb99177baf4d83432edfbc54ef0524e72af65c),
  (0x02222ecc4b1f79a45a8d46ad12abe217ec9a1e58c280b97317df63236eb4e4a0,
   0x1a7a19c9ebeca09f4c7ec57ff201761ecad434928c57feac8dc6c26b627ecfc3),
  (0x337e4fbec8b33a4e6fd5fd34c4c8ef1bd6501c5d0b0fe30afbddd33adef43e8f,
   0x1a32d8592e42f132a93519dbc171881490fed9eed112899cfe9a53117c986fb1),
  (0x3be4949d9d7b53c55c634ef502d293e82e11069edc17bcebbd1f570ed595ab4c,
   0x01070f1f04aeb5d69548e55283919a99b68e672473b7edebf087456a6cc00eac),
  (0x39d7c501179279a3805361b6b5f2ca987b8e4c1574b2e969493a9aea32626e17,
   0x18829bdbb7d845eb8324b8e74d46596aba13604f47bf326053d35c1943dcf2e9),
  (0x0e8aee9045a144e1d48d97b59e5d88e9d276a7f930668f030d270a51f183e9e8,
   0x27a42da3211576d4900f4bdf19746e9f710facd00450af6428184a9f3fa0bb40),
  (0x3afc9061806568ed3134eac4c87808fd93770a01142dc428b689cf4037dc668d,
   0x2559c358bc8661ce9d63d0090c0a738459f49ebc34aa59b360c77d3d3fad57b6),
  (0x0453dc799e74817841352c949dbf9dd7da8bbb5f49bdb0b45c095692145c79b4,
   0x2ea2ef55be81fd4441194ec6494339e2e63945d52aef6d32da019f0507c79539),
  (0x3b3be12cdc8e7efc6702e625426344a662dc978b37003ffbf49f4fa904bef892,
   0x3f3cdb56a7878aad50dd72f0eb8ae4008ccca11eecb0991e10bde67f93e41090),
  (0x3d16d183cfd9e4f3e44a6249553424da0fbe41a2841c8e6bff0a53a655f4b430,
   0x2d5eedba92e3787e9475ac8c7cc96eb233862a205ae3010cf1737a474a12010d),
  (0x0269c0074842ac022a79c6b1760f230a5ef1c68d82056ba8ec32bdcc3ab68bc8,
   0x29bf5935ee3bcf0d764401795a728a8fefae24fdd605d32cdea56a73acf70dd7),
  (0x3f06e865ae86e74e3f9c1cd27b1f8c08a2ef4a252d8d462aafecfca4d92857e0,
   0x37955bec4580dd2a9ee16a4ff103b9cf2017a0caddf91f452bca60c6542a5cce),
  (0x0c6135683cef710c05b17517b826dc89b4f6468c8120fd138691e4b4c1cfedc6,
   0x1c272a98a433d3ba61baa8f8bd7a34ffe60ec8d4cc1a34dab119025f6be21c59),
  (0x2ad0635efd8569a09b721c145292b1f4818714e31fd4834fc7758f6e229b53c4,
   0x03df5258e7c99279444e4b2b779220fd598ffc631f641ef0359ab6e7a119d83e),
  (0x160dd9d758da88b5ba1c281fb344e7ece6d4a11da37a287491345261be305e2e,
   0x32a0503afecb23200f1901f271a622a5200065265423f35fdade8f8fbbfe566a),
  (0x0849b2afec1113b58f07c57b3fdcd0762a57c9d087302e1b06835997121755ba,
   0x0c6f0de43fdb971df1ee437b33fa62f284d9028aa60f5d9313d653619c27882d),
  (0x1ce04ef4cfb4c9b127dc0ed1161145fe7cd590e54c923c416e2344049793ef67,
   0x323d873d580f2a72c2979ece527b63b86a5dc6bd9379c9c2fd5b9f8fddcfd367),
  (0x07778711913856b7a50a519785d670ac9846e859178d60b544f982c7c31d7a89,
   0x26e08f4c2f70048a6ed9fa7f468f261de0af8de484a8b3948fa150937040054c),
  (0x2ccdde83e5096a23ff03748634b97494549533a5f50449cf1610366abf419b15,
   0x04d89a553cc837fded28d6ab01bd03b9014aa2d1b3b7bba79724c7251ffed7b2),
  (0x0b04c4619897ec8b1b1cf355e7aa959f9332681a89796c9350532dc7a8cbce3d,
   0x05f7a7c0514d9481fb9d53b932a296c5df44c95a8b528f0591c09815eac26003),
  (0x2af174e3b8eb6bb4a0654794bbd557d2d63c3abadde384c6e9e82ebdf36ac3aa,
   0x07b6b7b56200d6ae41b41fbd54b740e1a6df1fd93b44ada5c1b7ec28b61cbc1c)]

/-- Part 3 of `SINSEMILLA_S`. Models sinsemilla/primitives/sinsemilla_s.rs lines 2696-3591. -/
def part3 : List (Nat × Nat) := [
  (0x07f3c0753999631c9bf114b6065a6090c96e9d7ad9d20bbbf80914b1c60c7c25,
   0x10b551f440819d9b9fa4b09ab998980d7367f8cc48326aed6d84a97041fbfe71),
  (0x0eb89428e7fa66e6fe7918b0b2c7bedb8761a8e568bda93f13b2211f848806eb,
   0x381f443ff7033d0202eee479a589b49f0a367483d7bcebd5a4ae5cd174dd020f),
  (0x0391a582eed59211c1c41ee02fba0ee291d7c643d196223ebfe9729965eaab6c,
   0x25666899b070c78e2e0495dc076fedfc4532ce4fa3a910b7f6f5ac505fbe870a),
  (0x0917436e03edfafc67bb8592e68f95dab89ea1336b3eec8459d331f8f73a4699,
   0x00a0eb9f912db4975cc5df771ffb57262615d6e8f42af8eb2728c13f77686f7e),
  (0x07c2cfac599fe8914fea37c52155ebd00fc6e3443c96555445a512f75fc161de,
   0x28ede74983dc4b16072cbed21f3db39362631e68432b5e9cd32a935d3c0c02bb),
  (0x3fd6fa54176abeb5de3fa9e22477765468cc20a70293f4e006de48398da8baee,
   0x278ee8067443d6e7426d078da05e5fc317821d05f83bd46d5353f59fe5a79799),
  (0x1df72e993570d89e6cf4e8c9485fb2b22612bb03e6c35ca8c06201cb83293f63,
   0x35d2eef4df12fd4ff6782daa49884ae314d8c82fb0c12f6978a4d3c21b6d70a7),
  (0x0ab37d6917651d3f3c5b81654f7a0a2dac89a1b7c1899999b4aefdcc23b019ed,
   0x08edb1277cd15737479cb292d5154d68fe3efba5af76b8c7a130f549d03d7b10),
  (0x17b3e97c781f885bea983f3f01381a139fad6a0194a209c1725035814ad19e66,
   0x31cccbe816e818049807df7370ccdaceadc29db05909a3d7871a12ed525db6df),
  (0x3cedacc5ade86885e1055ca40c252a016485544d58aa3fec42b6c7a38516301a,
   0x3f82b4154198b3b11edacf9ce6caa3a3087953b76a3636ea4de5edcce563c20c),
  (0x1e092f1ea84dae0199dfbff392f2e1d7fcc0b779a51da5822781610315f57658,
   0x38c6dc55925acbb1727aeba9910e20af8ed9b15d03995f751e6f2bc58ea22080),
  (0x2eec785bec90be5a4df4c949dcfe526325bc36c1336b0c2c91fcbc05db222747,
   0x062477fe598341c1125098efcaa3a74d2deffacc0fdc986b4d7efc93c1b15b65),
  (0x166ac76c81f8449d36d26c4d6ae21690fb16b4cb6165cc87b63d7e6655d5e3ea,
   0x0906bd2de5ccfafa5407156d69adce041b879d9885df6a3082e2396893885c2b),
  (0x06f5aae52940c965fc9b08d3ba9e2d24100728e01f6fec97737ccc4197967823,
   0x14bdd4cdabb9372f8661032176b313ce3f9e680dfcad386528f162cd288543be),
  (0x3bc9ce194df37d84c1820837bf0b8a5167fbae652ead04396c25b3d7e74e4edf,
   0x2f17851c850fc7ed5a0aa1267469ec62ca78a0734c6d7fc76a052e7498de40b8),
  (0x17703f7b98a4afe37ecde1bc3a9fb86e380d9ecffea8a93c3317c03afd91fc0d,
   0x37840c9a9c1beff5f38da7ae8e477d10c66b05c3adefc98cc54b5020c9a0f2c7),
  (0x1b69d19cd62bb010252a974b7e9d2cf17ff86ca2faa1106e50937efea739821e,
   0x3ecbb98a93511276a3c70af566664f67ae53d0bb8ead5714c16f5a7f12a2844e),
  (0x1186da1389c4b670e0f51554daca9e941b2867be1e772485bdc54853e848f0e9,
   0x04235accac90496abf7ceb3915fc133220b2e3a4b95f872b16513d05c7762b00),
  (0x178d9714a5387eac8928e81521938b737f43208fa155b0c101b07e5dd856259f,
   0x3ce777726e04374244e8f7b03fb788ff6bc7e482a235c77ffcb4658a4c2046bb),
  (0x0bff365c4a48be7c6c2aec40cbb6e051c90e602478ca5f2755eeeaa0d43e91da,
   0x33619f38967ab97b781c943a068ffe732d569b48e5c8414d145aef04d8ea8dc9),
  (0x30d6c1d17767c3e61588d82c533db0653a08766b9cb9e72bacbe71a579962bd4,
   0x1a5d9a987774d8e46a75591f324eb6dbd87a651f6eab7d3f5d520dacefe46e17),
  (0x2267625e16a90f0e14c10f42da3db3adce5a1ad2ef36212b022572e9ae01ff6b,
   0x19a88c5bdd76c0e215d034ca24fa48fa01bb0a021198ccac7bf45dd3d6d671ec),
  (0x1ecbf631e1bd91a2b76b7ae3d9826b773714b7759ccf8134fdd97cc134fa1e2d,
   0x024a535a50886f26315e4d26f06ec2e69f64dc5c9bf7633cb61100ceead14ede),
  (0x289a7df49f8e22058012a006e1b99678c229dbf2cfa32ca19c754f1e74b62341,
   0x0aa178e867c46e0677bca95b339316df63c05a80bab8b239a29286b714cc854c),
  (0x04e81c148e0218d1cdeedbfe557fb7ed40478611cde4c6246983e305abebb0fc,
   0x1a3452e0aceaf51acea5b64e50022bbb97f866e9f2bbae53e5568d3321a80629),
  (0x1cd36395bb69dc88f170e239f7e9c84428a7a504399a1e1b3405d7178cc72c52,
   0x158ae3c7752b77511a53421e85e37079187f6ecc1ded2163675b0b5104e68e2d),
  (0x0bbbfa9cc2fed2d01f758954f62bdad59cd8040212bd47535500883e12a9cfd7,
   0x3420e2ecd73413e5b646194fbecc6f598cd6c4c098833e5119e6d9094824a28d),
  (0x31addfcc5e4b700df86caeb6c85c4356dd9c4a9210568e2080a9e5e31610f69e,
   0x1f152617cb34976fa9d233717f138bb6b7f023f336f674dce9abd91479e1df04),
  (0x2e7f19e7c704b5fdb2baaf97cca6a3eb998871560e613f5f960d00a3fb225078,
   0x3ea73777ee4fb850541330b7244597609c408186c84abd2657bb469f0dd9b209),
  (0x29f9ef3c013d20ff6b5be7ed43e05474e65d815b05955f7a62415e2dbe880053,
   0x2830190fe6ea62a917655ee67ff268df9b086e5e0ae630dc645ce074cff0711a),
  (0x3a462aa4f76af9ef47fc771034747b144bf3f37bd546d5cef9a6568b9c614281,
   0x0a968e6297d595354d5585d0c71fa5b4ab60e175aefb931d480d19d7aeef4c79),
  (0x2718848835fdd77f123e6839b4bc932a9300ddf01da817a6e436903f24ac9df9,
   0x19dee9132cc0a224f3f835c8347e995dc0853ece0febe4a552e47abd9b0946bc),
  (0x1461a8e640c8f85ae85ec0c886265736901500b523c1e447a45383a9b4e6a758,
   0x062ed759693d19d8f1e3f2501c530d19eb63ec794f6df403501d08eafd72b2c8),
  (0x0d890d38e803317d03dc4b048d5b9ea58ae4072177c78590a2c4a38db249fc75,
   0x37e7c380d027a87775aa80df185a8c1c350948eb0862d70e3e10ee609358ada7),
  (0x35ab6c2fa72a67a5ba894a619a9a5deb91e9f0c0b66800ebaafda565f09a06cf,
   0x2c8ada2b1b049e5f65804aaaa4a3f62cc3d2140c6fc39747dd345830bbc1a26f),
  (0x1e1ac54370ce61cd5c92774b2169b66172ab91de19b32e2c641e246a98ad630f,
   0x2138a0f04fd0ae8562dda513c86e47209bb4a42bf33167279cb23ff5285b8448),
  (0x32396eecc899df015fe161927de00a62320c4e8ab37d13af05ff8a3031c8c2c0,
   0x00839120fef64f04907ece3113c42834fff863437c504001f86a5aa7254cdb0b),
  (0x3844169d8e215b8019568f17fd14c784cd0d35c783f5ea680da35615e80b7105,
   0x3ec0c83c398a638e0ba0d3167cad7c5d34e594815dd7ec6b1fcc6ff41c9bed51),
  (0x0bb5f435f06407e1569a4c5dbe620c0aca5624c7a92134aa30e3dd2acaa89e23,
   0x28c114900528c2c101e19f98b685ae1a8dfabec57137b1fbdfe8e1975e22f53b),
  (0x29c4ba69c672f4f38c6aa52f0325558d588e312e199e763b3dccf7ce0ad8e4f8,
   0x3ef761af4dbb7f0cd8f0a4f26c3cfd9506ee7a55fa38ba4e19ecf218717152d7),
  (0x3f4e7e2ca1c7708d4c899bffb8a08ea44aef02b656f4e2f01f0fbaad04bb5f75,
   0x1534bedb94355918c13ac49a1560a8e205f30cdb8ba28ad602f67a101c9c9bbf),
  (0x1a6c5f3eed1be25b07c8bf38511f3cef72c70ce1e0752041fa876dffb810be23,
   0x32c23d1a8a90ae9f1bd602bd221a6807835b4dca4cc33f4751ddc0ae85fa65b0),
  (0x3ed446f3babd8fbc0cb88c0ec597879269832d079745030d0eed532ca114960d,
   0x17eda80303d29dbd6d0e69860b1626097e2150197c865e0b2fa795627ce76ebb),
  (0x1cb8adf56bf7d57bba115d0ed1464546ded21019ce386e695addf07f28754f6e,
   0x26f72308b634cbf38ef958027c5ceb68aabe1a6cc038250c74b343e730675c9f),
  (0x2a6c642d8d10e582290ddd812cb05761bfb41ab4b14108b6e6979cd02e2a09a3,
   0x17493586294fc00ba6d103041f4e68119ece6cb2499e86d285368a2ae13e84a4),
  (0x289dea2d59eb3f2677b8dc365ede0af60008fa27b1fcf86cd000f933b288c9ec,
   0x2cfdb9809dc34f19b99d03c498a8d710a357f9fb63b55c8d6ee99aad2b6e4dfc),
  (0x036539f13da53f58f605add999a6a3b674155bb3363320e84a3ff24bfabd5cdf,
   0x2571fbf83aaf0f52ece46d1e47e18baee4dfd4e4dbfc30994aa5e9100459c408),
  (0x0f0dbacc068fcd710e1d63a976ded59fac17cbd2355819a6c08b755a6fa656f0,
   0x33dee193caf74d09083dde4f9fe344ec7ada42763f885fd79ab68817d366c236),
  (0x34aea666fa73373ef9d1acba99ed08d55f389101f1be4e2835958bfd2887b46e,
   0x097882d85b44aeee8e1ed46d9d3d5454ace0f26f85049ec08550386db2696cc2),
  (0x1a05df201bf7016e066b89a8bf0d853aeb593ab70fcefad0133719a05435a760,
   0x28e50389a9366ecf81f3cb9b0f8703f490d1fb1accb8880d69f0568a7e886ac6),
  (0x1a870e90b00644406e6d1433c49c3c3dd5aaf9a6dc3f770650bb3f2964ddd715,
   0x2ea8be75625f19d6e200ac50b2e5224a3df7ff378b3de8b28f4a8f0d9ffe2a67),
  (0x39b2d1b3ed5f280115168b7dafe5369bd821c76ab91e7cd29352f3ae79df84a6,
   0x12b173bf3cbd5773f18d46f69a23e9ca246748bb7fb812b2e3c1c8d34ac0cded),
  (0x3deeefd000c33a50d5fc3ab3d692f5e09179b82a91e59ea20d92cb07476ac74d,
   0x04a92111c5588ef03aa3b02eec62b87123ea04caa975a183ce377044fa3243cd),
  (0x3aa3d99b52762d707b4e1a7662cd3571a1bb5b5dcefd5818dc97a1027da5665f,
   0x33f2bb74d6566f3b756be2a252bdb27172164b55232e5a3c94bd7936fec37759),
  (0x22c1594f6399a591fd3943fa2bf646dbca03c9d87f657f5ec8fd7256d6dcd9b9,
   0x3a6d83e9a433e2196b4f1dcd00007a873776df4c4371d751a3d31b8958be066c),
  (0x211d199f4af13d314a719e43074be266cdffb76ad98364c12bac92ca749d8ca1,
   0x36685169d28f4663e07e62f8a9e1180fe2710a4e2b25e0cf615cf3757d8a3f72),
  (0x319320a0380e6bd76eb54fcec55857ce0f61be9a2a03558b5026b92ba0257211,
   0x01b4080cf3976ea1b6f37bca07a304776ff048c0b9c9f9726fe51d43554af6a8),
  (0x18e28c3ffbc1e7073c453a2c865bf0466a65f7f8f786f1e30c8514b221c5bf83,
   0x24fbbe5a09e4252a2d071839acf33c80682cb02985d5f279b3117e9019e060bd),
  (0x08cde7f1737e4d1fbdfcc29aeaae485250a33f2c64f9acc43f381349fd3013dd,
   0x2f9c01cd934a39a52338d545b2b187df2e16091ee8fa7cb8c9eb95f10d2ecff9),
  (0x37791b286244fb4c4d005b0867f9fb095ab350b99429ab022f4f2486fa98dd32,
   0x323dfe2b648a0a0137109d64690b71313d5862910404eff3f37a1b41ad7019ed),
  (0x0a83ec855467a25b6b0acdcda94e23ddcde0e148920119b12c991b63424c90ac,
   0x09d4c6b863211860fcf3838552862123bbf2157e95d40f9ee2aeb456e0295ff5),
  (0x07240c4e61e2c40435711c0446ae622b1efeb9414639b22a5a98269bb68add6a,
   0x23a146c9cb467e4b6dc9c162d5955ace28492c6d82b946794ef232c5b9e0bf79),
  (0x25f51a1b8b2b15b01b463eef09110ff0d73ac7a93c060f510ea6e46716885744,
   0x02e03e559e852acc3e7c44f4a071358a9eca1c26c8d34d220e9424d7d847cff0),
  (0x358aaa4a969c7d11dd5c4dc1f6a61ed075ba667806cb3018faf6e9634f72548c,
   0x0326622d0d54888228443f7bd7c5386bdcbf5faa5173d6727192b88c0b4126f7)]

/-- Part 4 of `SINSEMILLA_S`. Models sinsemilla/primitives/sinsemilla_s.rs lines 3592-4487. -/
def part4 : List (Nat × Nat) := [
  (0x087a76983f2b40d63fa27d7fc12a308b1fc250c9c62e1cdbf31d86201649f08d,
   0x2ac35afb37f064acc306776a68aa2318ee33c9fd999534ef1dfe55f8f11acf1f),
  (0x370fdfb097f4255812b0f864c7a88ad86c41930f374acbed3adecfe8e5e33497,
   0x309bafa26ef2925bb03400224b4a86e7163292de779c623c7220b1e41ab5cf99),
  (0x2d332d46fc42f207f6d7a11df480e3f3c828f41999004b7534065012f9c05127,
   0x2477ef0228ea9a13fd570e954b0275d5abfdde7cdf9e5e252e4662509e686ee3),
  (0x3ac67681a6821563a88b9b65778bd7463ea877d8d59bc50bbc3ee22f76ca58be,
   0x33a1bb0d70de7a897bb381b2f90a0804d29316755b9e520e012d26a175a2a60c),
  (0x05bd71f7da1c0c643f263e09835af66b968e19adff271d61b0cac9ca8444ee90,
   0x3b58829c1b3c754ea3d65b5fbc5d8147e5d117ee5df5c9f561e9dece6f852582),
  (0x14fe94029ff79f664b326adda5d58444e8ee3f15868d9a9939e89116b59cef80,
   0x162cc7856d5c74ddd19e3ecc386a82826fccc9791537fa138f6640200012b5cb),
  (0x34a4a683e010cf560c6f3298640b78d5bd3b2a17ffaef834dcc02e8e07fe88af,
   0x00645b12758a1545547d6ec38dd63bc90537702e040b92a563f3abee7273ea33),
  (0x26836545f70777c20c6b7d43ce192ef59118328b98b12a4fee8e7e91b30f5175,
   0x322a6aee3ba4d176b7faf13c00647ac1c468a05e0278eba4d798780b8fd5f829),
  (0x21ac9398a5e7dcec8216482697e11826248bf2ddda958f941e3b4dd6618913dd,
   0x3f6e5b46b349c86e10a3b808a28e401f7677d0f9ffdfbce3772d8d755b4c3ff4),
  (0x3bf2268cf24df183923e92e135a81746af07cc5aa53ab6595585d887f1be367c,
   0x0bc913da4ccaecc3a594c45eb7edcbeb39a19091b74684476fe604735e78a74d),
  (0x385c81f8ce513dd715db897f3b7a4b07a6cd7de7d439ae611dd42c2cc5374903,
   0x1507a6375325d9348b0479416c0b072f79e267225b1d39ed0ed80b1c199e8dc9),
  (0x00c1b4695cb27c0af1286ce2c67c671fa7796331ccd30336af3186eb84ad4635,
   0x2f3f845eeaa903e7bdddf903c50f6c61c17b1bad0248be187c4fbe0e1caea3da),
  (0x20ec33c498b43f28909e4f4d6e92b8fce78aeae6e018700573386610264b147f,
   0x30602ac38a2417f5b1549c996dee651b729d227c2a311b0f29a8eaa155073eea),
  (0x03dc0d4e7c25b4c88b7be7eebb9ccf071130716cd00c2e123fa10f32fc38d1e7,
   0x0b3a4062de68d35a71c857230112d789f2811971693fa7cbcc372d2f1cf0494e),
  (0x18c830aa25a9b96be4ebacfae071f2211e7d037596cfb42f2e57965d8fe63cf5,
   0x330670f22a1ade182b79b6c00ae144e538bfa2394c668c551e35c955b145dba5),
  (0x18036e943474308f30c200955bf928828cf3b7f9e5091e930337c17d8089522c,
   0x05fcdc8a770eabbe3b824eafbabb227839e94c896758a24883ace96014abf3bb),
  (0x3131f9b2c23e76a9a9009592c5562c129688b4f7fa83b7564d15af9fa6dc11ec,
   0x3ce39a6a42ea0aa0b808e58cdc7527e1bdc7c62fa1a8205e6377bc0b418d17d1),
  (0x24870e7f975be25015d8a8240a437e9521c0adf585701f29919c36611b95aae0,
   0x095f973d1e256fe02b361401fde53611b8bff2939d0e28032b8af942d3254f8f),
  (0x105fd6519a6f486cf0db8000e078d5f65731761bb667965f25b5ca69afd7aff7,
   0x3c7243ccc6f9d8a883033072def8c70af716d2fcb54c26c1f6ed7c184edf3a25),
  (0x15aac4cf5c522bcfc978728d7996fcb686f81775ed00f09ad29af540a1af2913,
   0x09637be90c33cc7abc265a82cbc8f7ef197e4429fe3d8a0accad8b655bf665a2),
  (0x09c928823da73ed01933916fd304ae703ce44f1cf8010d6775dc37ce9ca5f163,
   0x1d9615b12538b56ccd51d77e9964822610a175216bb8ca36141a785beb358d29),
  (0x05a8f8f38c440d2ec945116048eb86c6c9a0533d95dfb16c7c71c1bd6f5754d3,
   0x02dcb98fed502f86be8cbb4379eeea5b44eb7f8af7bb3f4211d85995cf88f460),
  (0x35fde2b2e65fcbf8d229ad1e6a44660734256cb2b93362ec4aa2aebe4d5da915,
   0x28b6ce44dd17b086c64aaab0e77dddc37d41adbf64428e9e9a36e5cce10a7cc0),
  (0x1b7c7a5d98d434b646bc981b76f85cbe8714d5983caeddd61729f03ec757de09,
   0x0e0d592caaa440d6e16694e56b37ac66769e125347447d00fb6188810f97fafc),
  (0x18aed1c7f94d31cb92952b04a86987381c61eaa0b273998ab477691c7b9a4e74,
   0x249ac33c1f19006cd9ac8f76f4fb99ea84566a59cd00e2e863b4a10291a03aa0),
  (0x2be1f2a6a7a7ef478aca28de50ac6407b449431e460c3b9aa611c5c59dd9c129,
   0x2339e67220fd622399f28ce2fff05d4740fdf4bba4f99362a14c46c987ca1f52),
  (0x31018876853f6e11b2301c5c58764d852e2ea2b6cd637b9eb07e39eed55319df,
   0x2e02e77212fba864917889e75ed97c53ac45ec78810ef0f96d1c01bbfd88f740),
  (0x0a38cfd747d512df6e701656036c32a5099f45efd9d4df4e482bce95a904fbd8,
   0x3f213a0f212788abc0cb4ce18364ca7d99d6ff14205ee41a570e1101ac764879),
  (0x24f8a1c52bcce57b1d71989063cb18bf7bbebadc663c142ad491d705998e3189,
   0x00f7be2ec34cd4e3e22bb1335f6615bb462161506b1b761710523fabb9466f52),
  (0x3bc3b8f9e4c7cbdf9c34676f4ed50771e14a1c33bf2713cd9b7cbac0191811a9,
   0x0ad37d647a36db47f832dc8bd08d48b09697bec0d8a8605bc0c3e7a53a192bbe),
  (0x2be610f4a289b89f7635b7b2f6c1424a276974402b48e4611a49dccad56977a0,
   0x2cc9d8344ecd1dd814453f5fd2ded836704f268bce47f0ed3e61c1673ef3fc04),
  (0x3af229a81e788c01ad183b6c844b4f3eaecc1a58bb491e6a11bea2a77c43e243,
   0x0f19e7b4bb819e9f95eb77a38a4f506e18a237a63f4b065be5c98811385746dd),
  (0x3e0a1a750403726f7387a0f662570e437c4776b5b28f500d42898695120dccc9,
   0x101905b61b1bc5f23e128a0f5763aacebf0175178dc0be8fa4b8617ff5a5e2d0),
  (0x219d9462265793134b7077c288580ff1ab01b8f54c9cc9386a1c6336c37a69b0,
   0x241c1980c2a89519892e4cf8342dd9279caa706e8cedf819f0caec54481db8b4),
  (0x366d41fdd5409bb67eca145760f96fcd27293e7ed52850882257583eeb364cc3,
   0x01a2ccf4056ffaa89560fd4303eea5febbcf1722efece2168bfe29591e8219f9),
  (0x3dda357c5ff1403e98dc0f69de87c57c3a249090dd6d9354f4b5ad0b5218a94c,
   0x37db226ec00ea29885370f1df88bd5812bfc720c90b07f405119459bc85db13a),
  (0x3d7c7c78e9b8851d25089050a0a159bfe62f9748713d01cc63b323a939a177d2,
   0x04cd8194f1b8f4534456781ce7d7a297c06ef1b1b11fd4b9398454cbb4b26fce),
  (0x0fe57d7ab313f576984de3a89232dc0a2d57546ca4fec3d5184883cbb6177af4,
   0x339eae89055292fb8d66c6a3c1748080b0446bdd3a0d7127675f4ab1700e2db7),
  (0x178ad1dd216e15731f09d0f5065d2adca3fa753a0908d10128c646e75497b6ce,
   0x037f7114803fe131a2c1f35aecc9b51c762a03ecdf28bda9030ea306b0411e57),
  (0x19485bba5ad63346491f9e0a77a085f25fd107f8c2f0302459eab5bb94538366,
   0x152fbf0c1ad3a4484ec7d8d5ba7487e2a7eb9f4bf78febfbe07d85705ff6f740),
  (0x386761aff0a2825352dcf4cf46fbb604fbbaf49463d62de58951a4b7b88ae304,
   0x3c8ba7f4c363edeace047c7b36b8bcd698c01806eff37bfaa79ea3330c3df255),
  (0x12d22f2ebb9fdc00f652096a95e0714ef42adf27feb7ccb0af3df66171ab0aef,
   0x1e7582ca046ca5e14fe9de60156d0e6c30d58bed1c3b47312bd3e13b745c7e1a),
  (0x0bc6cbe22b931a091a0cd3c71f78d34da303e1b5ef9e9c4e4b263b3a2d30be4e,
   0x1686468a30799166ed53c71736e64c785d90b70b85655e855ef8540ac95078e6),
  (0x2f3d06eb2d44fe785fcfdda4b51e08ba712ebc8253913fdc0d0ddd14b7319e48,
   0x05b3f1045b90640589e7827496209f58c8a6e6d00d309550a5698634a0b3f32d),
  (0x1431fd828c128ca914624404a6610d5d8c77fb45e5b03ff065569fabc93f5ef1,
   0x2485d1350391bb523642fa4b19fd822a6254e0697645e573e0f4ffe07a81532a),
  (0x24010c36e54db3ee21c6d47c319ca9c0d2effda1e729f6525768e306b2664925,
   0x024ab73e3607a26461bc9d081307b3d6f0c2c315ee0491f2495190fceb1b0b80),
  (0x277f0f45b6ae62038b9f86564e830909290a32da0a43f56b107f387e54f4ef3f,
   0x1687eb450f4d72353f7e68bdfe610371827055d607bf0010546b2865f5cc4c0e),
  (0x05d918ffb1da6eb76e7879a5f11f46fd753e2521a67f50aa78a64eac316d2648,
   0x047be1a6060c00a37de4ae799f29d2dfc37b3f4604cf5755bab958639bc93ae9),
  (0x080cd18c035f3d1cd05a440341b8fe0e5380ca6ce9ea0b1a49c871c261df7cb6,
   0x164c32624eb6dbf6efb15f0d99ee54b4dedc74afa21e7fb25274e1b3a894244a),
  (0x1c6c47fa233f06be6d4b9e16540552e7ceaa5cf81671dfae720aab53d5886877,
   0x26dcdb34c46c475cc8a1db3050aaf8fe52582334b4f0389a61f53c0af4a4aa3f),
  (0x0e1f8f25134a535e09f3ee71e6d71be490a1593b19f14fe33208297038403e89,
   0x13eaa62b73e00d4c8846361108cf2b2891f7850e90745846d519b8f9b1ac7612),
  (0x2fcff236d66ab6d837179c040954afa8b59da767e1ba84b74f39a353445ac66f,
   0x12eee67e10176ed28a44998d765c574d56429cae6025720a681af2950d6a597b),
  (0x0788937e9e35d05eb3a725f664e175b92537ea36fb796590a31066f1af04bfee,
   0x251943eeb590dedaf8db8c46cd4faefbe36220009b73a921b54edf7e8f9fa0a2),
  (0x22b7728ff5f32e9187a7038132541fda8b94f5d7e46cd059a88e2b82de1877cb,
   0x2bcb9b6077ac99371c211da8cfc7b1d397192499f4d251a3673d7869fa50f997),
  (0x1e9b88fb12aa573af9d38da228a00e5497a56a16423edae8a6858e350e91aeb6,
   0x1146b28a9f9760fed3b1ffcac43eab3766504cd439708ced9be163b72d0cc322),
  (0x11e8cf639f286365de2bb1396cf188761250940f3606539bdadad29ea8b18934,
   0x27535582b996b87b49270835d2360fb2a1a1d88845671dfb50155f8c21025aa6),
  (0x3313c543e63732ad7e38ef1032a2771eb28f29f7b0c63c488cc5e492e0b4ca8f,
   0x2070c6564f60801220a72453e449f1a405749ec0b3f7fe0876694d57eb2c730c),
  (0x0337f093b5620110f3fe38dea0d9767da0750e435d1356db7ec21a43236a004c,
   0x280bc654e7e7dca0fa2d4ee66018beea6bbbc9a581d555af62ce718474065d24),
  (0x2395910743d3b22235469b6b5fd628c6aaa4d9c4218e5938b0e1913db0c244fb,
   0x189c8131f518b80a9c0fa2ccc8c2fb2bef45ecaa531385ec5caa129b4b4ce99e),
  (0x05f19d94cf5c55d41492b9fd830d3b80e11b5e5a3317d9a0032c426cb013a4dd,
   0x0d94c052f2d86405d127dd3d91d853dfc48e29af97d88d072c4c4704673dd003),
  (0x3e23096dc90606f6d7bfd5ad053cc494fd466a0d2dd4a59202817bc9d4b93609,
   0x0c0dd8b529109f77a857f30033cdfaaa48882a9ee6125ebdca1ba2adcf48d0bb),
  (0x2ce7690f9c45b228f732370ced308f28670827eef35d9eee63aa2c76cd16571b,
   0x088bda57e794bed46cdd78c635eb3d586b7535a53b795a4acf088fe5d2da2200),
  (0x2151a369bbeaa627e9447dbafd99596abc259bd5ce7a6e0f4f9290f2358204fa,
   0x153be1408a4179a8a9cedf4675f211fc3a2d880e3a7b619bc11e3f084d9983d1),
  (0x13b10df313d4e0dea67490a012f9fec25d029826e003163e16b4ed0b32aa4e15,
   0x0e446ba1c4c730fef60480c5b973198e8d97dbe3f3dd64d8fac358140dbf6fc9)]

/-- Part 5 of `SINSEMILLA_S`. Models sinsemilla/primitives/sinsemilla_s.rs lines 4488-5383. -/
def part5 : List (Nat × Nat) := [
  (0x35d9b968f2ebc3a6511e76810c78b289bd6ff2922d35b63153e502ced667b3fc,
   0x153d81a143f033f015496703964e4f604820763899767ebf4b3bf3a717593f8d),
  (0x118f5744f6aca78062fc8331dce82da0376a2b41b9d1ece231ba52fc3de5ff01,
   0x364ff02042c1224741bcdabb085fcb8b40add3631debf495b1e6df681ea7f7a0),
  (0x0fab7d646a291389913c58354ab5aeab51e0bfdc10a4d1db36b416380c9ed00e,
   0x05756607ef7c7347c1b259aaaf0bd100af16ef69ec9affa2332118a5c43899ab),
  (0x215a5274fda3f4b6dde3235a2ebd4674fb982b7c6bed60fd74e00818faa19834,
   0x0c6e92c5d9f94b70d4f36b85c93a1dc3e12872461a715454106c9783c54dcdce),
  (0x3511415ca5d89c89aad7e0b12452bfd1bf8be863197b7eda1b65d726c0c04615,
   0x0952ff5e91f15c61caff7c501359107c30e164474b6bf6d4d8330a7849966f63),
  (0x25f8c0196ac741d8131ac0e3d11bfdbfcc94561f8673d71a0d0379dea34ae974,
   0x37b4443af52348a53735bc70cd9ceda8168369a96ab316e9c14d3404894d304e),
  (0x2e08d2d11f6af91fc477136988f7cfa565e7be87d79a44a899561c6e192e7568,
   0x274d0775a079b46f0859c81489dc15a7abb304d6e705de6c8a166878cf4dafeb),
  (0x2b38c01e7ae8dfd99981af353af14caeea3a7ea89ad3d6afdb3d11a84fa8eb13,
   0x059f5d670e5188acb8f70d0dd10c76bc422dfa9051e2eb38830ddec03c068077),
  (0x25d9e3dba718848218ced481b3ab923b2f494c528f2853a0d91097f8e2bde10e,
   0x04ec51a9732ec101fd490e15d2f51094caff2367d76d2556d5a78005ba950986),
  (0x3259350744ad2a0eff0a1d65651202d48f7b40f6b94b551f9f75b0552d08c237,
   0x08dcb06637f59ef53933d14e7c90a14b67fe664c1556008bc3b0007b563587fc),
  (0x1dafb77a22f1a231fe27c3f5c7dd098b577425e4a039ed7a66d65691d7f46f1e,
   0x267d66bdebc35567d48c561913f26135a538e6f25314865ca3bfe6109f9dac9b),
  (0x37c3a72aea7a3c0848d5264143d1c6ccfbe95fb4544ddfc122c055b7005afd9a,
   0x288ab3ada23d9811858907aa9ffaa44abfcf76bf248c529c77e1afd5eb2fd2a4),
  (0x3e01114fd579ff3534d9fc8d9af286722874cbee5feca088847f2f2eb09aa283,
   0x197756978320c24b75399f3f1180d5078f8f14cd6ba7b7275504d2372254c60b),
  (0x276c3165597d81729202563893e7a2f0970f79cac4fe71cc21d8677da4ef3754,
   0x01c7cbc623e0fde1d58c11efe1b67c8405fa2b1e95dfce2ccddb83d9a9a14fee),
  (0x2b17a62aef55fc8c93df5fe54b6f15c1610261de71fd509e5dc411b7be419bf8,
   0x264817bc3f85f5f9321d908507a073943d076e3a5358d94813e927e75428fe43),
  (0x1a1225c242a6d6dcb88aafeb3d1cee227dd542c206f14ae9da55668cc5c9544a,
   0x039044ab2e17bd89cbe5923889e5856b1a21e3e6ed3ee0e2d8d802d67061f4e7),
  (0x26ce75c5b2d5e122ac39a24e4ce53f97f13fecdefd8061703ae841dfe3b7290b,
   0x3e6d83ea86d5d926a3136c1e483c972176e315a5ad620daee473f056dc79115d),
  (0x30f3d34b406d3804384e98abf72d0fbe382d5858cf9d44bdae2f741ad98316f1,
   0x2fe848415f292c18b86ddafcc50027d63e17260860b4bb4bc245536222478063),
  (0x3e0ce5acec7d2bec340ff2617ed137809ca2b9c2dff3f3b47b6a11283c3c80fa,
   0x0ced382c9268f3f46f6b02392805590c6247866ac8b1fed8d7412e2b3d37fb89),
  (0x3b8f7d37f83ceefc8b97f27c70f937cfef0f7eeb1b0c6735f517dcec62e9e3ab,
   0x1e458d1f2c82bdf4454ae56d15e26ff5bb348af97905e208c89ca8e67126cae0),
  (0x1eaac9b94cc382f756c69b750b63eb5de729e5a00840e7fb8f21d255acaa5b90,
   0x09fb04444edc27ffc1cf51f4f03f6d425ec1c5cf197c0be2a370d467d4f0adf4),
  (0x0398bc661d3747e767af0a9cf75003b2eea6f71c6bfb1591b12c0d2f205c31fe,
   0x068413f87199260e94ccf92be337137f13c5dceaabedf8e3cfcbc59ba71ce886),
  (0x36dc43c7d97777d2943b0cdb2a012793a463f7955164d737f82d26f7308d982b,
   0x0484975c870323b27f758d0c1ee4d82f95ce751e83b7643828d0729cc9009cd4),
  (0x1a2d544c292413dd715a5538161962993d8143623653b276573b6407c295bc03,
   0x2aa3498b0d5ee868b086e27fcabee36fc43bbf747668ff2b35eb0d37a82aebb9),
  (0x19cd887765a7d9d87a7b06f160f67d5de6a51dc4a99d9290bdc2bfad362e4e45,
   0x2d2adbead1b6989dc69f7c0f10e4e5bcfadbc64d501397ef8d51630564ff936f),
  (0x2fbab5a3c4c6773a2f232a1d07d9df4daae4f810312f8c56583ab4b1cd557263,
   0x0ee5e010f598055d9223f63f59e967813ece87a167ece5a873e54412d35dbef2),
  (0x37092e4c18e6289b6841c2741f9974cf8277fcbf73c366a029696dcfd0f245a4,
   0x32ff9c634da9341ffc7cb03445114e5d81dd5e60c4b06016838f2b532d37f282),
  (0x03edd4094ace757a6ec77099fd3fbc2d7cd8e22c968cf64e9ff0ae3100445d6d,
   0x107683d8acc2378ce387f7c968d4199a957975a6e421ce51b949d0f4aa7ddaab),
  (0x1394a3daf7c5819ad4fa877a2a8e237db3c47744bd2acf1b7c36ca160d02f992,
   0x22241b8bd75d142181d99f641be855b64bf91fa0ac38e15ab6135e521b63455a),
  (0x2d76b68f6c00d2e63b075a6341030c39b7e793edc7978d45ceb45f69b989fe1b,
   0x169781bae7d930678ac1305aa9ba43f15065af292ab5050c3ac81f11ce1f0c3e),
  (0x1a3d5f578f57a4a018ef0b57dd7c3b7ccb237766d6072a6420fef089d835a48f,
   0x12fa3870514590175e69c45a328eae08de95cb1a38b59aee257425973e32c989),
  (0x0924e27311dda853d7aca0916e33815deae27b08c9554e0754ccb71db11500f3,
   0x3cbe6e62757ca1a584107aea6d67f7502d9e5dd17e83e8336d61f93ccce9942a),
  (0x0b9f4bbfd185de95a71aee11a82a121a91ee16464ccdec34749611d0b7977376,
   0x34dc4613b828dd9960931fae1eea2b4dd17158db87086d27d15772ccea7ea26d),
  (0x02d6cab2451d9d53f52df5a719bf5ce5371c9782b691077a1fbd03d81ee5f96f,
   0x10b0be6de22146f84302b72c1d4a5b356e1e109e62b7e02b19b853715e90f9c3),
  (0x0d16dcb8786578a6f9ae43780413ea393247bd2eb1c45ee324cf34c781aa7322,
   0x05f305ca497105cbe729c0d6427e0fc3fe5e2c86fc661a819d41e5023ba7b1c8),
  (0x322a0e1163ce20e8d5f4449de9e3f1839e19617b52e9b42c1afaa868252f7b9d,
   0x3ce328a2561bbf673a769f31cd20aa26610b1f7b4f5a6acdb391cb0a6351bf73),
  (0x29944742c6a34de2fe73efde65d62b6b1d821256916ff50430c79e39fd403fb2,
   0x01f3609deefda00c6b0642c4a199cb4550e244961b34d4caaa6e9941b2a54d17),
  (0x3e21edefd0ebfab44bb41f7be7299520a3303b4252bd53994bab06a5e0774a9e,
   0x1c58279a6bbf575004bc58fc37565635df3561b71aca4810464c145fcb6499e5),
  (0x15e2222e6db144102efef1312968d89002fbd682b042170299f4f0fe9dc0ca44,
   0x0b60960abe90667eabddeb1e2a5dfdb023abd14a6bd287fb67a083e2c99a0667),
  (0x376b146b97e09a59281aa42bc45a2b1a4c22ce95137cc36cc740684eba5a4faf,
   0x2c379f0341786df68a67d20fbe31f8dff554a7b6564c83fcc4efbdb0982ae289),
  (0x31c4e0bd450e6e50861d2eb462610b9b5604765251e0d7d42ab62fa84b1f8e4f,
   0x12288e2713b3b5f09a3cb4380c394da6b803ee7b7f4a6cefd8d33e9ef72abe1e),
  (0x261ff1ddff1f5d8e0b6edc85421d1af4cf488423afc0a7531d8c119e1fea0f3e,
   0x2539b87915a5f780247bd709b69131b7ad1d82dfb7498ed401995750d19e6caa),
  (0x1aa01aea8f5dc980fdba79ca0ccc9b449ebd0810d45abccd7589fb80f8e8939a,
   0x394a46634e3353911df7d102f86b370d578f1dd38ca48a1ba555fa276b83e30b),
  (0x16e316078d0e330daa8d096796f784f892eb8f71fb24c4e220a6ffb4b2a06005,
   0x300aebe32a72477ecd9b504e26da2f484b11771a1b217b5bdd441a60d4325070),
  (0x292e928f7ceb3ff2c4ccb47943b99feab3ec6058d948a573744f4c87d1d4508c,
   0x022381f52d29279cc92d41dae465745a9bb990cae6880b2087ce447603d027ad),
  (0x0453ef028a0a0e931b7f051cc2b64ab31edde3f33771cc050762380730d61de3,
   0x199ac62677dde42d8d2355e313ca6284a12f0bb81911e9b24af4208c5106b83f),
  (0x07467e7f2d24b2da739510a32e84194ad6d4d39640a8deada5d5078b65a531cb,
   0x051fb6537e5c669a4a21f9c75a25793d0fb2146a77c9c7ad2acad55d185165e5),
  (0x36101ab43a302e8193d1092b43f0b004fef35127c5dc20fd5c772c3e2739e3fc,
   0x2679b3ad0bb1f5180c558ed613c31d9f95ae1eda33fe553ca2062c8a69272961),
  (0x2a35d2f2377288ebe1c2259345ec8dc4deeb0d8295d12d604c994a2d93566587,
   0x18daf4d5332a1baaa63ecdcb8480514e5c662c8cc52119b8dd98203faf9dee4d),
  (0x039eaa43428abea078ed585e3225fa0f007cd209cc3109a0d84cd0adccfa70c3,
   0x286d2d9997fb09c85e3ad1e10641c3b6b5021eeed7811fd1b8f704f9aa61c65c),
  (0x17c1c1b69420721b1601479f9b32834d9f1b1cddd30a111b2f1678b3f5439c73,
   0x389de0695988822f1d4e6bd4f26ae504f9f9cb4db01abc235b680b7290c2201a),
  (0x390059d21cdc6bd4c0225c6193c42f07d58136f08d487530b1cca546a26cbd86,
   0x3c2a71ce43268d4da7a806e6da9f7440c25b9e3a542fb6b66b0c72de318e22d4),
  (0x25dc8f8541ca57caf6a651ee1f9002b907db1adafd5f8ecb50e111a20489f122,
   0x1d1a0c9770edf4324b07d4a16ee532a3e1db5a0557a053928241e6e0c4edeedc),
  (0x2765f4c027cbe853d9a765b7c82f711f75dba00b0b9e4307b26b68f6008671f4,
   0x27a17d992875639d6c0e4551c789273d1df5ee2677272a6db2a7d024e97ab65b),
  (0x27df52ac88e947ea1258286ad0cea1a371547c95a7be2663db10fcfe4260d68d,
   0x204632cfc35510e2bce4cf1cbdd9555d93f6bee436886e323d4e5b5300c30fb7),
  (0x04088d250509fd2f68eb5538e6d8bfcd3484bab704d22a178b7c28f8d7ecc2a6,
   0x241d3b9cb64c1c5131b5e0c5969a1364c70994e23360b3e957f8018e752eb908),
  (0x104f17547220df3ca851ba95b01c9b9f80b77fc9f7d1454e070fa90763328b37,
   0x0309fefc0c51fe88f8c5e72014f7325f338ff6d5fbd58b877dc87e5305e719fb),
  (0x3113430a214b0cdbca342567f8af16d13d43f778431a39d8b33e81479cf81580,
   0x2cedc552f9fcda21cb52a6233314e4d3e5341a6ec65ca2b013c959730b4f4399),
  (0x3d68f28995eb8ebcbf602a8f52fe1001b2526d8bb9f2415be2f2d321bc0b2ca7,
   0x08ef9afdec6740fe5d6ea0865a3055b9d3fe7253a71573b415bc988cf260e0ae),
  (0x1402abd364b491e435593f2741982167b5a83229b864ecb84fa6d6c391bec514,
   0x1e1d54b18e31aa0289415aadad355caf607824cebd1746c1ad4f91b55f829cbf),
  (0x07f3787f5b1b6728d835dea80451546ad30d826dc1247ab7f268ffe3ff1792f0,
   0x0169f72cdb1b2fcbffb2ef933bd0ebed6119b0afe57eeece06be7c3022da5b48),
  (0x0fb600e3c86bb49ff08eb8fbc4abd423bcfd513b64f25684e4562834294b888d,
   0x19f65367896cd8a670dfec85cd8a1b58bea65eeaf9aed71ee7bcfc0e3b3ff8de),
  (0x067954d02044c9f5bfb0715a00cc0c7c044b883cd5c6097b34fabfcf3c221b33,
   0x065aecfbba1c4f3992bcbfbba58adb136d2aa446a6854475d9191bda61df8d07),
  (0x302230ed6e9c6e28fad869eaa7e44dcfdb8bd4d011d2f88e86c3eb487c88bd57,
   0x30fd7673e58402f42e6572704b8b837392ea6a64ab91359a0fbeeda5bba291f6)]

/-- Part 6 of `SINSEMILLA_S`. Models sinsemilla/primitives/sinsemilla_s.rs lines 5384-6279. -/
def part6 : List (Nat × Nat) := [
  (0x3acaf4918373e853ab2e31508cebfb7aa20d8ca2651d19b9ea842eaba955bf3a,
   0x3b916c71845b1715bc30279eff7be6aa2b2e4b9a22acd3d344caa4f692ecca97),
  (0x13ade51c5d290b7ac92541082eaf2a3c03ae5752aa54b5be1202b03b21d1d047,
   0x266f9adc4b1636a123a2ba0693891b6dd60404731a81c29f80418cdc5c36974c),
  (0x2187c185232c318bacd4cc7c99420f78a358984da4148a519afdaa5e40ca0c02,
   0x2031fd3b435999d0eb8dfef7f22df466a513113edfa2d8268a813d5d499f4580),
  (0x30f2e8ef849cbdbbc078f45f0b9087edfbbccc9868671618038e65613318309a,
   0x31dd63b864cbde15ecca06aa0f3b5ab87a95de961b209374a36b5a0149efda91),
  (0x35c5a0324cc58786195949f05a11c922f493b3411ed9021e4796b297f98e93b3,
   0x24b24b27139e827e1e0c8c0264089be03b35545de5bb07edfe71cea726631804),
  (0x2f8354a3e3641f2dd38df6b1d56857380ed06b9b4fb112ebf33d521e4818701b,
   0x079775d93fd94026fffe61601707a09188b1ab174dc361c52f57b58b8e5d489c),
  (0x209483e1a0b0a8372d955d568f054ae3326042732097b4f37d094b089f0634e0,
   0x1e805fa9b94aec490f8ecd9e6143ed8a7bd921657fb02d3f7432cb32c68b2165),
  (0x2ca2c0ca7fdf3aab4412402a64e386363ef8814014dcb0625113896c8344ca04,
   0x35c2a19759b7ad1cc68a900fbbf18b0facbf64e83c8859f5aed411b6dd39334e),
  (0x1859da3e20cde9574e45faadbe7b7fd3e3d506497f056b133d3e18af68d862fa,
   0x141e14188f51e0d0a96d2c5e65973c58d41db3b2a0462af1645da090f36ae749),
  (0x0d3a6bbae1677f06936cf456316c55a15c7bcf1c6ad7eddadabb00be7a67fef0,
   0x00d3796b0ba907d1195dc44b0585652de8e340fa305161afd39b80750060baa3),
  (0x012d485dfb2468148d673023a716fcc4c50970b48e363af00f72b95ec0331d81,
   0x0918c246acb5fdee398f1550b9e30d8c426d028d017049d3ed916bb8262417de),
  (0x21c9dc8ce0215c1d4de3cd80f40503be40880cdf1a2facdc1293b9c907254044,
   0x2b22e6b4d976bb9490fafa54eadc032c8dfd33002c4da85d2a0b32e023d9a3bb),
  (0x2c676bf1c4b86158070085c6481ff20a8cb7a9406905bff47f67fb2236436df5,
   0x2fb0f64aa35e6c604b5a0021677e9587f931e68fa15fb06c7cf18c004a9c1a9e),
  (0x2075e4469ffcc6fbb0aa67e1dd158881da07a0c254808a60980c11350270595f,
   0x22e5932c6392e33f690d6e48b517135e862b52b6f304e01b44d0d6f6aa0a1932),
  (0x1cb0da911a87cfa0b6c3ed0f5de41a3ce3a28ce12ece2d1df261d24dd55efa46,
   0x34c680fb1dd7661b8dcc4e6679415a9e089bc245a04838f55442565553361f42),
  (0x3961400e4b13e385a3465bd117786f23798724b422bddbf32d659072d56e5b18,
   0x257ecda999c3d0cf8e9ffe18293c5856487516bcb3cb783ffd5e6292aed25d3c),
  (0x1ef917f66050f9b80de747c824b5d9cea288d1ce19d0c1ce8313e47eaa560f12,
   0x10c459204a4509fa9e24fee20510c124308c26cb3ef9b52051b3c417aae3d512),
  (0x0ef2f878dec43a29c02a1aefb019705e366e2b98c3f851b4535470f626b11d0b,
   0x32b0046ebbd51e144984289ad39b917cba82354ac0620fc1bbe1eafdc8f8d6fb),
  (0x0205976fe9c1b9d7073bbe3d9d7b463dce7cea622592e580e5afe7093216cf73,
   0x16b7f6c665484de90174f38f88f914255513ea0e5caba5c41eef2946b9ab16dc),
  (0x3e3fc5944e9790eff7f0ac0ef1f1e7ae33f6d32473511aec07cb2e9c77625c85,
   0x36bf156f395ddca9ddc691ad5bdf57f044e445d22eb5fae6f28621ffe28c23ad),
  (0x38c9c6de31d054f12c89684513b147ef1f662e9684b2aeabd524a16544267d9a,
   0x2d5b3fbe7b71ff4630268ada227c8b3a13bbddc0606c20ab05ac032b5a68e21d),
  (0x16474f51124c377f9fc0d641b0406a979944f4dba624498b11b685e3842ec92b,
   0x208fc6df823be5f94813d152d1d3098a7805c248f3c3fcc5116860f3af342dae),
  (0x296735a304180bdd423bd93bfab8c9375ef1b7bb31991acac1697a99835ebe3e,
   0x0f8a171f46c2fe7cc2139520868c748e368c8c5bb543e0a1bdb7c00907a2d1da),
  (0x067c220e1a5defb70345335036cdada1e6709f7fa329f25c6adbfb16aac0e0c1,
   0x0c94eb80956c63f5949fe270b2092bc291c5539e3995fa41effb7a081fd452ca),
  (0x2676b3edf17fcc35cb76bc91e514c0bacd6500bbd889d19b76cef08fc4b93ce9,
   0x18ba9b259fb91ecc5c759922987be0fdf9f0fa37559fb568a6ee7cfc440d3bb1),
  (0x3c6d3d48689c6545e56ee569c5d2f813ed19124a2b33bb6788aa9070b7aaf1e5,
   0x1220a7035129d5550dd8104b235084894a3867c9cc68d3c52dd33c986d922737),
  (0x0f07bb4e3f0a06bbe1136044b650fd2468ff419f787fd6b4f34fb7dcc29ee3f6,
   0x049f733f9545e7b0d5e1cfeaa531971db876d0bdeebc8d41af2f3c9b30d64868),
  (0x1ff06c6fbbc97265299f548767f05bff229cc86cac49a95d0730f7ca1dba2634,
   0x2c00143d8e9b261eea6075253e54c341a6a0b509d7f432ed42d485b3c343fb9e),
  (0x171b73f6f3817bdb736ef067a1d86854ee35002254f7e10e8fda58ae2efcf247,
   0x3b387dd3b99f11c198c78cbd6d9ff721f1a516afa161fc8fc34fb48228781165),
  (0x31cdfecb38de73c39c29d3a5c4c13774523d70dfbd93ca28f52c8ddcff5b01c2,
   0x22216cb6ddadb185def2d4952f519984fa8b75930610fe60c68c3f2826b19cb8),
  (0x2704ec4e2419ca44af57744965fd54db99ef37b9cdbaa0d46bed8edff3c0d24e,
   0x23267f584dce4708653baf62fe66967f58f8a33db426e86b8cdf2bd0b67eb1c2),
  (0x0864b20383dae0d27b2f4ce7137c5695774f0aa2fa1cab966312f284adb72234,
   0x2125d63cb9cfc0b5c4b60b2883b2aac6caf032bcd5c94c3e731d3ed153feb76c),
  (0x1952c1c816356a75acf7bba6f9d32f755bbdc73ee01ba02053e93f17a1d99759,
   0x1fd75a22f673ea807705b5de1fc014c0571c0924ed6e1a9066ecf0b61af3d4e0),
  (0x0b2afb0fed995390565d5a06e81f9a969db3dc4a6dd75da351e1ea408c91aad6,
   0x2e2fae1a239e1571cbe328e1951c7a680ae73db89527b9dccb85e6f724ebeaa3),
  (0x0e7386096c3b002534b36c0ce96d541bfd66b7d1121c4ff7f958eaa264c189d5,
   0x3c16ea6ca968ab1adc76e494dc8b6c50049d98740dc9177f2cbd19de7f3bb8ec),
  (0x3d37fb8f9eea8d51d5bda128019a7ef22909ff1c0e1f9785915aadcc89b7daf3,
   0x190f69f4eefd5477211315e15d7c9110e673589007fe212009bee328a080f138),
  (0x2ab5d63f55f933ef09bca123a0702c370bfe9714c9779a7d9887d028c814459b,
   0x2dd3ad250723378a163bf414992e0d03d2d93256279caaaf77043175669acbaa),
  (0x0e2e86a78fef50ced823dfb328e91bf482bf76f9a44fe16aaa70af4d2c621ee1,
   0x2de3b3e16dc12b33880608c5d89f9255a3407d75e959bcd696df97dd95e69e90),
  (0x0de0eb000263741aec28d3a63cddc5550d7d864d7d1e560e0c96293458ecb2cb,
   0x242f4811c54fc5a42286088ae441e77a9797e7eedc7ec8c61cc8207d937b6f0e),
  (0x3f8ee2484851a53b4d9ce544ba2f252504f9d82c26af83fb02e608b8b4213091,
   0x320a6858c7efb1d8b530b73f14e787317ed75569f31bed679dac0a3cf93d2ab4),
  (0x27a96926feb8465800fb3437a4139ab8b4dcfb27be5daf33f1c79c73c18c5bef,
   0x35fb6dfa6996faf9d80a41c93fcad44cd81670b55f8cc186f94f9504a8055901),
  (0x1bf97fbcaad63dd36bd9a42ee764f28749d2bda33181eb27bad41cc88afddd08,
   0x1e46208eee13e6a19adcda24387e73bf2ecd3acc85d90a8e9e7014b6b93f3479),
  (0x0dd7b8d911c6097e31b52141ba5476cb79940a4e194382c7befc4b3732e212e7,
   0x00c93eac1500b8bd9debaec079ca08f89e03f710b58d290e878f37be45a624f7),
  (0x228ea752e00efdbf48a7d2b674229156bcff47e4811fe691d808eb89030942fb,
   0x02883b4840b133788d456536032ddb366b0f07a707528621f199ca0ac24cd4ca),
  (0x2ec433c900e1bbd19ed76f5c5aa19a9789d5ce6a32fd13c7e69343b49f9e5b1b,
   0x1e2c043d0511cfa28f6a635197b0db20f6fe9a5edfb88a4eeac3ed86403eabe1),
  (0x00ab08a1f3c025db4159fc19773874561d8f3e16e38fa26f9ab7f215baa394d4,
   0x100ed9d73b769c8e0e3bb7c20be43570bb16d239fc1ea68b71274247225384aa),
  (0x25b48d9ff09581d19ef2f7fe060ea4169b631a8fca4bf41442c3aec948e924ff,
   0x089958d77854623671df5cb204232963104df6d8e9cd72d68ae42d3a35a0766e),
  (0x1210c1192f7bd48555113eee8db8b190f29fe8a22244b057a5dc0bada65b67bf,
   0x013467f61d264b884afea317bfa2f9e4e62532a022695edb4b62e8e560e9df23),
  (0x182719c145b2ad839999feb619e2ce8f97132e549dc7f6d1d1d53c8c9f78209d,
   0x3e8879f1053911ae37cd166a131bbde9b59ab45a21c2c8aa644007e80d1bebca),
  (0x1371d85564937957ac76cd5b7780e455d62d98a3729d147b212847a780b3afd1,
   0x293388963d25c33d57ec5e9d09d2d94c18977fb8d4d321ff03c535ac7821d861),
  (0x38d0e3becf9ad8fc583bd5e63c07fe562f25149eb638123d4c6490094f5bb733,
   0x1ee2e8e9a7f71162df90065f46d7346190354a5dfd55d474948276100282f357),
  (0x049151552307b34555ea0370e75fdeaf4158322b3ab5e06cc2cf20da8325f9f6,
   0x2300ec5f8679d667824e78fc93b0042b3ee5aca9420ac8d43a6cb7c758d21156),
  (0x1b110f104c22867056f345dc329cfe4d70009fbed545bd9545344de7cd4a1286,
   0x384c1a74cf997d8731a43dbce45b316626d64ee0cfa1e3fd587e67ee4d030b13),
  (0x28807f09fbdb606987aee2aba5710f68fe734fc359163751a739b81503af5bde,
   0x04a523d49550e5f24a5cc47f99f05f7392834894b296c35c959aef5208c391fe),
  (0x3a8c2c5ad7c4d92ee3dcec5cfaeeddc1848d48dd594a7097bbaaa1558473a2f0,
   0x10946631c67f0dfea8045683c10d680470ba0c48e53bbaff3bbc7750d4fe2be1),
  (0x12e56f18ba2a83f3c6000f590fc5e51e9de846d9609e11b3360221c53677ccd7,
   0x081b05b2cc351fcd944f8b8b0fbe9e69747b505eb1f1252bb472c933636e7cfd),
  (0x19b039423298a1b409bae2a74bc9bc8040b625b7d5c4621ff69f2736a2e602cc,
   0x1afc017ec025f77715184d356d967b9189300e85715a2677ab259c0692dd6ddd),
  (0x1b80855f52e265f14ab27f51e3508d9ba72970e774eaf665bd9ca11dc9d147c4,
   0x23887e28f45acf6f35339da393997f27e4c13895f52aad9b47cd3ef325be4c31),
  (0x3a7a8e3684de274dc8fc9c150f5430d679e455758e7a78f80863f044e1a611e2,
   0x16122c94e22ef260972b19add013d7c10bd234a65c64786703a32fb5bab33a4d),
  (0x2769e6eac901bb9f1603092f6d39db3895e8ea3837552814df78184dc553f8fb,
   0x16b15baaa77c92e67317b503da6023a68341704f980d1ea96aae1ad222b62d45),
  (0x282a562e6ffd6c2d673e2552a80f847fb9776babecc1635d35ad694fd3f393e5,
   0x3c298b6c70f65826f8e63e0ba3cba82e5f787bdd6fb9767acd61300faf9b7633),
  (0x09f204017a7f3d559af79a50a097b0404741dfed87e7f4edf978920b403385f0,
   0x1d2c9905b8c58026e98112aa71045057435efe17c8a5cbc1484ca7c71e1dcfde),
  (0x02a2000d679b2dbac6e5662f83a1e56a5bff5ce2018e858f8a4eddc1e2a4e687,
   0x1df4ca05f14d04e2fb7916ad496d1e14b8c74bfa9b6940562f6af6ea7c76b2a0),
  (0x16ca05a8a644e307bb4a8a7e90ab1b707497110a3ab554c86088f6efe336ea5c,
   0x05ec2cd270b2c32fa5288c4e96df57eb9497c2395d17314cbc6b4bf6eee003cf)]

/-- Part 7 of `SINSEMILLA_S`. Models sinsemilla/primitives/sinsemilla_s.rs lines 6280-7175. -/
def part7 : List (Nat × Nat) := [
  (0x106f7769986b58eccae252c3195059470ebbe76314accff01d4b5aba2d516844,
   0x1dd7ab82538022dbadf7592d33f34d51af82b1799fbab8aaec32de24bd532691),
  (0x0952ea05e7049ee3934a7c8981e24737e75b8f5ff89f73ab77015dcc356c94f9,
   0x19b4edf64b693292920d4ffe7a286fb2998521f05f289ed47bdbc92d9d5075f7),
  (0x3344264e0e0f39af27f747e3bd7b0b591ee6c3d807e9cb722d9348b718f9b3ac,
   0x39be7bc46e98ebef5e92a5011bcba88abab5f15c75c7fa84539214e59f277f85),
  (0x1bc44ad9628db32483f4c3e799b45fe54231e383e08a1c06effc5cb857987d36,
   0x2ea2a4bd7949e3529ec41f7ec634c9565d3fb49d377c550fb05173ed1a6083bc),
  (0x1867768303fcdcbe011a16651adea741fdfd58bbe7cfebbdce11b86d18ab15c5,
   0x1c9e8a89693ac155697f264819e5bf420895f62c82b4bcca8c65a7b3743663a6),
  (0x3c09152aae39f9d76616f2146b5606955b7c4fdd6bf333a420f150c1b583d962,
   0x3e409606dd7ffcfd57df944d2990ae683ee6fba2a3657a958d4cd15c11e45f76),
  (0x1841ffa5956053838206a3414f163b2b24ce009604e874af0f1dcbaac64e207f,
   0x35f9eb312da03d4049acc46f7652ae104e61663de9748c8774454a84172ddfb7),
  (0x0dcdcba825836234fcb02d600a46877a85fb6de40cdcc77271b2cf29e6217cd2,
   0x1bc14ad769115d2850d2061622aa60e51f29dadcd44602dda5e7e058d611327b),
  (0x3da3b0f36ffbc5f73a06bbb643ea1ebdffad8c506e2597ff76ad98d4ab3b419f,
   0x18e9b59ed7dc0386fec9a301a77f064e08b59863d35893b0f747ed0e6bf0296d),
  (0x2e4af15617f9aa1bae4f210bd78387fa21388c2d19c41b6919657b9b65a0684f,
   0x377c3c47a79acd0046f52c4a462912c7076a81daaa1acea57e5ada887dbb23ac),
  (0x275cd87fd1a9affb007c16e738ddf6503cf8686d3a8c2253d9e69b4f775a8960,
   0x102c7bd554e62a1fb894660b0ca52156a147cb90545e97922eacfae883be39dc),
  (0x2a63e9ea93b48b684ac1dba315cde1387610a4da229644513d505225818ad743,
   0x1d772b01598d98f6743436966cde5174f26dd9ffd12b9ca2602f7b8a987ca0ae),
  (0x20b6e71f03ce350e4a04cfd6a9005d0de3a067a8ab7cc1a79ee679fa2503f12d,
   0x35fc1ac5b9333f783f5a211d6b2f6a4b1cffeb28f38b918aff99352e01d9e9c0),
  (0x106244bd20993d22617bb4e3df1d6e3f6d868828a090269dfd29ac300d2ec13b,
   0x3e321295f9a753f393998320f3a012c4752b22b30554a5b4ba4b62077d83b053),
  (0x0ac1d2f5a9efd18dc466cf97819abb8dd95ef5362abb71e521b02a1367da2df6,
   0x1083d1d6afcc3d284486dc64f0aeae8e3e16df3cdd0925f8652c72dae56f053d),
  (0x2581a1dba4a628f9042011425b05701d7d741d9524fdf1a2d66d903f1504cb22,
   0x37b73cbb6a468bc30470dba6f453d40b56b5086ae92327ee31f53161943504e8),
  (0x3554e1455ac7ce255c87bf4db4f1d4cf1a5db99aa3cc09e15a64fae62a62095a,
   0x1da96c270679663dc7b5e1a2b66a56d31079e028f669bf9962fb29aab259653c),
  (0x1c0496496246d90adcf3617c06b7eca993b516bf36799104a38a759705e4c595,
   0x0ca0f9bd545eb5630e0696192171a4b50b11bddce6c43c5bcb9b62de2098b010),
  (0x0c6ebade1095aae8f36a135eabaa806f6f7caf47e50da282abccccbb5ce1d68c,
   0x0312d8af2b83bc5289dad73ccf47946bf9dd54df05a263bf759ccc9e69e6b3e2),
  (0x22d5256048fba5d609a42d48e016ca24a82e0939a10dd3bd3d63f41932094084,
   0x1b27fe10cf0d2d8107db5f05120261f4e8ba59ea158296c5205f917be385f08e),
  (0x08939b6f69ee9ff1333da34f899b6d01e5c9a0759804c4f1c3c52026c4c0cdbc,
   0x1a8c87dfa7e4fed0e56c4f49ed0594c2cbfe0af098899ee357385c90a60b6a29),
  (0x2156b879f378005fe83b0a2898c1b3ae9ed1bc3ea53b80399bcc8617524a7052,
   0x045461a06d060224364cd7d1beca462efd2d77ee9e45d137e4454fd61a4c0c03),
  (0x06f6891de68d557e8971a6f2c8a101f677f6fb9f2f5e4cbba6dce40b7742c8df,
   0x39c7f743a3ffd99bb88368d8bd3f0e8543cc807a158394e3e136eb32f32c9360),
  (0x362296aeb985ad755812c85df51b7666c6fca92bd386353e4d928024dec5a188,
   0x04b749f06ac18d6dbb7cdfe190eda6e18664df03bd4fe04eaf7443470ebccc5b),
  (0x0bcd657707d9c4d3851eb1c6f081270a26688f4b611d168b47cb7e3a61e65d64,
   0x228f44ecff210aaf9be3d622a4d42261aca00a813cbe8d14b8a79c1d01646e59),
  (0x281018ba6873285b4ade7626003a6902a37bd49fcf1e6d1d01e832eb32fc77d8,
   0x1bc74dbbc711e11b599f264ee5e2861a647ad4e9cc9e9df93b22bd8c3f6ae0f7),
  (0x07def9ce1aa59c47cc23c910de17adecc33d5160cd48b428ea31502cf1b80e15,
   0x37f728e556e4462fd74f2873e2b3fbd6b123145010874d65a4aeeebab4645932),
  (0x01d5e2941638a3988e3d4f2a6d1585906062f47d7261c5807e309f95bb4bc5b4,
   0x121712c3778ee4a5e22660372ff4b8dd661f3a266d6d2f2b2d9425e051766252),
  (0x1095066066b415b1e9b8b790943e8250a6b222ebd80f7fc08089bc3e77ce6f7c,
   0x1708b8dabbac5fa266465d173a004c921bd37176ae8cc867ecaf5823aa30216c),
  (0x03d9e65c55e06fedefc817a7c16672ef3ed6b8246b8e81930f5ab3f41ed50406,
   0x12b5fc79338602add08a576eef040407315831600238603ad2660a0a3a15efd9),
  (0x314256070f446667d0d21e8abde9c3f0333625120ea2ddefafb45038861ab261,
   0x36e37b1e879fa3fe6bc8e93ad9f13d86dfb6516203ea5997d47d2bf6b0cd9526),
  (0x2705474294015255872e0f0f818e24012f14e213977dfb899641b725387163f8,
   0x073c4fa70c22d417810d265f9dbb24c2bc1c133646cc0de8e91498e9e277bf3e),
  (0x3fe103e4b2039c386b7a19e738aaefa8aade43beed5aec7472e084764f57cbdb,
   0x1e9a0a129951b3448e893c3300619b20f2278b45596cd47ff7b0a40990475ffc),
  (0x08705e7f5d5b29c06d1781655f29f2d42003845a3171beb1273e1d1d25f4def7,
   0x020fbf080453d6541bf2ea43d1a2e73df32a41cdf7895d7e55935829fa5d7cff),
  (0x2a3cdfb9b0ec7221f8d59b75f9e95e27e869f8721a3e457fc7cc99c72db89a13,
   0x0f1675e5fb1b60167ef6c02043d5029bb33c22e31aca23f0da929b87c8b343ae),
  (0x2438e7eec6b6628904e2ec299caf61465e2460df0bf668a4daa7c49c581ea8f5,
   0x0e309799430a005e90d6a0d5e69d004f914939c97c98acbbd94cc55009905ce3),
  (0x3e6aca9f7693dbd873090fc72e2c8978f9873a39907246f316d2ba71df3dba37,
   0x012dbbf6af713aec1a945bc17bb2ea2ab8abdadf64c7ce8e14bbc667e12f8242),
  (0x144395ec38cdbaefb77b8e763e429cfb5e0154241ed56054240d00dac9d736ac,
   0x11f8e5778862dc12175b2f1a655babb6ac136a2b6eece912a1d5463f18eff4f8),
  (0x0415c72c6adda7ad64672893ebec80a596a7d4b3e2db2ef9917d91a51b8e9f26,
   0x1502f313f9eacc53779bfe3859e7a99d6fd0a42ea164a90731fe78e5541cb69d),
  (0x21be39d7bb7898ff4f71713788ee864d0fd8546ca5b9a1e8629968d0f509962c,
   0x1f3ce37d51aab4c14d022a9e1cfd6d331a02ad53838107e12e30597c56a1b4fa),
  (0x3e0eb866b610dad5cb3fa0580cdc929406b8ef873d81def3d2e8277a9787ad9b,
   0x303a50652996bc3ee826d37c968cf31ae99d9c469eeaa7fc416f988d290bfce1),
  (0x2eb0e8702a5b817bffbfc07c4f86ff208bbea0047bbeb37a970dc43db7f96596,
   0x0c35a8ee8f63ce4e4ca25c821a350486a349b8f44bc11a4bcdecdf92c73acf15),
  (0x3d8fd30d2e98701f04b4e5bfd165ab7ea037ccf515768f653330feff82c5909d,
   0x049c46766965007e121e23ecfb6d3348b3ac8cfcef68b8e476cf354c613f6916),
  (0x2f163cb5e15950da001000b7fcbab74485cc0c0125229ec1d28b5af8208aad16,
   0x206078c21062adf6a678973b4ca8cfbaaec250ed9f9c1bf38204a5a6854c8f0c),
  (0x380291b0d0fb11f412d82660d7d5cd9d47397be5ed5865d9b572bfa2ae44bae7,
   0x111f1bf35acacc6c5d07b071e0329c77d1c7c9c5f145719eda9ef004e34f00ed),
  (0x381ef7c209016f19c69de9671f2a927754b66b986ed11c409d4efee9dbecf74b,
   0x0871c3f1196ced39c63fedfcad988cca969db03f4366a7c978cd62914c3d4870),
  (0x049968521fa493b8800ffb1f93e71b701a5dbe455bc185c6bf955ae0cd2588e4,
   0x138790764310b4108137070314ff9de2bf4f428f9cb98c280888a02b46a4447f),
  (0x0bd947e1a875e349d28d9c85b17d440048679cb7f37739f4d12eb4c00f6b07df,
   0x153562a426382eb65de3b929f65862373fb9f8d596b89fd8da628d27e56ce1ba),
  (0x1c3247f1b306ddee7067a020a49191974fa43315d7f60dc636af3b03bde6af5c,
   0x0786cce04423b08a9dbdc120670eac51f53e890cd2fe64e1c652bb5a650ff696),
  (0x3d7cba8b8d24c9734f5c04e74967f822ab8803cd3c69fc109b525a045c02abe2,
   0x2a85cd4f78e975d5ea00c48bf1fb88d83ab80cd318c7054dc36f6da9c20e8ca7),
  (0x246afe1b17d560111fb6df88d28c8d4e136d4d8180c72c43ac5bf95ed4b611a2,
   0x35888b6824c6e8a0410cdf5f93a962581467dd2d360dbc6436687b3347564972),
  (0x266a34b19765cdff50595ae61b53847126609b2ba7508d8c5dc22a724a62d492,
   0x35680e4adc4f62ad491d3273a50e004a40a4f7fd1ca8a76a7fbe5bdbd358a2cb),
  (0x250b73ec71d54645c7b5d048b55051ee6437369dca6dcc9ebfdb990cf977fd4e,
   0x1793e2150b16603dec2f6df5bbcecf949e9ee5006ddc61fb41aee46b4412b381),
  (0x3d1f73680af5b7ecf37603b217692f82150003740fa1e1826f886d79770c6247,
   0x0223c1d44c5dc34a4effb7c5e1aabb0ae735aeaa341fae1781b6a75ae4f9729e),
  (0x1ce30702a06bed82f0fc47a1756cc536d780283f4e02c512419df14d79457532,
   0x09e1711b96dda806804ee63e09dd84bab77b9671d95053a0aa20975314796860),
  (0x3694ca852cf8e54dcacaa4bd7fbbd93879bdbab65d825998607fba34a589c019,
   0x369ba0f20b09fe4894e477e759c5515b4a49b78111bb66e4f55528c03fb37e54),
  (0x1fdd43d1901d1921fa7635b10775e8e1334f6c0e07dab2aea90348433c41e761,
   0x3d4dcd140c46afa7ec1f22f340a07a4a72dcc34305840adab042af7e11f5e1a3),
  (0x32cb28e5306f4b254a2689feac518cd93109c5a43f3a7299651653a1ad5ab863,
   0x1ab38e0c8fed3eafb643c5f5bed9f57ce9c268bf1477f81ace2241f177700732),
  (0x3e142094bf47b461388c5260e2cd625dfec468cb3ca6b620ad37f47dcf5bc929,
   0x1095d08b31d1571a7a84d88bb2d8d148f56b018ecbd394fee1913bccb9c4dbd6),
  (0x23c3cd8e910e3f61b9ca220029b0fd9e192fad49886d4f1c4c24da73a43b18a4,
   0x289f6688c8f7a7dad49af1a5d660f046f6409e82f746d6c6446a7b2c0c53995b),
  (0x36a90ecc3af71bf87b9f0036a0b5b7ec23cace6dd52f41af93222f89f46919ea,
   0x262e4d3c689f55c2623c7acddabe658883c70ec2e5cc48a1ac784d5a2fede96e),
  (0x21d28b83ef143a0784968dfb620e4d78c8da668de3e8c4c0c48bb03ed3dd130e,
   0x073cef7aeab5e67cb49bffe39a97dd6be9af6b59b23f048fa60741ba7c9f512b),
  (0x0a4d069634c21d49dd5eafd682247afd9f3efb6ba8a3d5e7bb8c2ebd02ef5c02,
   0x372ef7de420cf5b0af4d3f1160face2288273e139ac89175de8b269374452117),
  (0x23044159f7675fe23f41d9a471d9e31e0b637d43b4996483007a3171e694ad4f,
   0x00ffaa5252f31075cdf707fba7869698384304a496eff3eac689d9d998f022c3)]

/-- Part 8 of `SINSEMILLA_S`. Models sinsemilla/primitives/sinsemilla_s.rs lines 7176-8071. -/
def part8 : List (Nat × Nat) := [
  (0x361cd9988c71f7d1b854a41d2524222207710a4ef363a8cfc7ed59503bbdae0c,
   0x28a92ac8140a7f61d02a3047b4427a6b61f91fe1a2ed72f5d1c3f5a8e31de85e),
  (0x3f7774872da1b63401810ff80bc00a37a955a88445b61b1de69b8ff568db09ef,
   0x1ecb0effdee9b332f79db4f7ef61586b8ec8681794cf4a02bafc61975f58119e),
  (0x1d637f071de768c59e61c761f27831e16db85ed9bc415b632e7c1b515d9a6b02,
   0x32f1ac34a889a6b137e454e2449ec3d06087861a56529bf5b695013ba88ae8fc),
  (0x1acb50aa82bc21f318b5d48af7374cec917713bd364f351145c6e97995c88f9d,
   0x3af2c307dabdf0223843fbd6837f46b9e9cc3b697c2a33dda0b5ac1e0e73137c),
  (0x18040e61d02c9aa76b879ec8cb2c34ec4ee4765ddab8aefaf320517db18580af,
   0x2d427fcb2de302b23c6ffa5b99735cc25c5740bbdf528c3777999a31ca6644d5),
  (0x2c366f8efc81829571de177e9447c0b345a6d47d1e77fc6fb7021f4e248bd314,
   0x24ca820495246a0ccc5889f3a3983e9446f0a493376d27ead417641c3ef759be),
  (0x27c9224eb005f2fb2c34468f08c567cd445bc1f6ff38ab2a4d4108a1fdf9022d,
   0x35ffb97ba5930142af43ea8ebe9c72c235e789c132700ae0b67fe3863ad85858),
  (0x1c1385a7accad2d0e4d0ad0b279e5d53050c617ec159e9dd679c9c77fa3eadea,
   0x0e06cb32e11adb9e9951123ffadec94f245c09b6233ec109a605758c76d8f99e),
  (0x27e6b214c46db4ea05ac16262bfa455d57f43e8051b9d2bcdda6c64697fae3a1,
   0x046ee6b116a4d6804b07d6dda718dc3c09c01eb2c3d47a5be0df39247265cae4),
  (0x14e683759dbdf9b7d1bbd65eca13f1e5b641d4be17e52a258827884a0d8493fb,
   0x2ff2925cae3541064d28b951db51646c43831bd8740d18bcc5bc27f2043e09d6),
  (0x3e03a120a2d9028e36bd683352ed686aa5264c4fd55842f7d2abb8eaa809c065,
   0x05f4d1dda52876ca6275e729aac417188b41fbcffa411d4eadcd15a22b64bcff),
  (0x3628e48afad37caf7741d0509d2ba46985a39f21bd2788a2259f45dfdb184292,
   0x2dd7037f7772b72a67e51358704adc0ddbc83dcefa5d964ff38ca50952c2edd4),
  (0x28890bf61603be43e03d5bc06ceb4255944b7238c8609441de9338bd92bb3d57,
   0x0e1bb56dd00fee5d29fe24aaca62959290177d24b04066d8598ddfbeff5b91c4),
  (0x196a2aa5dfcc2404667e840547867826feca81345364e82b80f2b1d9cd31a2c3,
   0x1dbb0fc6d62436c89c3f525ee03f487da203aca9842b258744f2ea4e50cb7b22),
  (0x1086be57c6c693826a31acc9902aabeb48c2218d3eba8bbcd9f8f81d17262ea7,
   0x19000dbd6915ef39bbdf86a00d9c9df9ffbb187cd2c671139b21c4ee44383fb0),
  (0x0e874af5a4eabea9450d608575532aa71dd3172ac7cabb4cb87ee6a17150f083,
   0x1dceecf293f2e85527cef92bac1e26d1affcea8ffaac247527d930056a39bdf0),
  (0x0aa4f0ca36131f1908c92fb9a8699d4be76fc0a9bb046fc7ec32f124f67cb6a6,
   0x0dac93382fb17d74a8fb83f4876957236c2a0c578f617a6ac77a383af5f9298c),
  (0x2f7197fb33e02f3bbb66a5c2ca07ba02cf455590be798165a4aeed269bd7f7af,
   0x258589f9249d35ff43001b82b34bfc81b1d71d00792cb875c6f5fa7926dc55ff),
  (0x0626f33366948b9647a11398f1c8691464d8b4547605528fca86695484eac326,
   0x20a03634e587cdea2982997a0143876251a2395df28c5a56cb9ac6958cdfac1a),
  (0x008fb3c4f2776241e7446fbc1d7671f9b23dc239fe51f1144a223815ad6aaf87,
   0x33a9ac548faa2dc4cd391b65f74355ca640610676e4b152aef35ffbc38cf2be1),
  (0x222dd6b422f541dafcf2c7dc158cb9962d1745fa33dddbbeb43e616016b7ac1a,
   0x2605689136d047e37a9efd09e21ccb2f735eb4378b76de8cd15f8eb66b9a1971),
  (0x3ed5f5ac92703915fc121ddd5bca1d3e0ffa859bd86e09f4a728670eb27d0c27,
   0x10c5a910538e2161311c7d39de6c80e40f764a1b3975493f2d66ad9cf3b09eb5),
  (0x2ef0c2a1ff67562f436d33591956ff929795f0b49b3821dcd8ef2e5508fe449e,
   0x0e0b7ddfc509d0530891519335ef15f8d3c3e572248ff4ecea615ac02396252c),
  (0x25b5defe56df8131a31879314b8703f2c20293a2e114ef1a595f7475529b3ad1,
   0x21a88c146d5d50f21d750d4bdb703a630aa395ccee666a3e3207683dce75c89a),
  (0x2ff0cde1263deb99e75f1ebeb321bd75e58fea83b9a18e48f1a0a157fe4454d0,
   0x07d0b9f2d8b0f8b3ce59469b4a861855d70bf90adedf4a1578ad13cb3871d58b),
  (0x33e45c8e81bcf20877fec81f1b870816ef33cdf67d9df8ac11865fc83d948160,
   0x2aab86267a08126b121e1e62c3e62d1b46bddbab182f1e8da79cf57d5f8f8039),
  (0x17120abcdb9a666e959b73968c33df3e800a92c565c6d0ab73095f4e92574e26,
   0x15b9a823452d151a498465985044501223a9bb12cc457125a4cedb71dcbfdda4),
  (0x12a1bb18f6aeaff443b010807105967235e1f53a12ead4bf188158c9d4f837b3,
   0x21f26e9b4e964ad6fe64ab4d3285580d7c79db4b21edb868d0c93a8c6405aeff),
  (0x165894881a7148ba5e02f458b883e4751074df9ba240dc105ead7427d8bc93be,
   0x2d9b99eb4fa94da9cad1ca64521c4b4dc050fc5b3e2ab5cacf20d6a330b6e493),
  (0x33317f8e812454f2eade4244f4cdb38c8a7d612b8a1e0e3abf059e5220ab1fc0,
   0x23125a5b68f5c72f44d5b9c8f89148f4e569c70e0a7c97f6c8889b9105934c5e),
  (0x177784613a3142ef5f26eac4e6d7bf48a5905768df89f31094e4bf9bf2a61428,
   0x13aa867d0d62d5013e30b05e9001115c00f30bb3f3821ab4d4c5a93d01a9e944),
  (0x385b2c3f69f22e4e03f9fa71d83cb6acc69031330cb07fad0d776ee683d56884,
   0x1be6e46f45a90d73698aca670fe03b63403218dda3f9f7d5e52ada77f926479c),
  (0x3e051b0797e54d7db629c46b87ca518320f74d0fdcf3556cb54f2488b34c23f3,
   0x054c4ccd9568783e7438846ff0c368eb01d87bb3efc532122845df6ba7f4c4a9),
  (0x370bf6a476fe98c7a9c173f45b364abaca5663802656a1ab0e032b41edf2601e,
   0x1641dcbed77385ac1d58cba7aae2cd1d68cb12fc922ce463e83ab9c8707323c8),
  (0x1edd0d6f5654df9fcef8ae6370b3e7cf55464d2479b0188133d950b207868cb1,
   0x18cd8422c539178577184cb69a9ca004d888778b481d0c87ca195fd23bf86d7d),
  (0x317751f970f055c82b5accd0a0488c8c35d2ba6fb33a337dd3d0061d3c4038a9,
   0x067b66e48fd440aed35d2f05795209ed1948720400fdac877da02d46e5dccf44),
  (0x05804e346c60f39d19856e06c83ddc720c4dd3eb49dc5141be67f5c1c53b6219,
   0x0c0b30a84eb6c2ffce36460d4c75cfdd8deebae76faa0b0ad970b5f8e84e2eca),
  (0x14691756396ee4504f296d086aa066917cafc1c9d1768b9bd211b3b485daf337,
   0x0b1bb3c867ad579fba9c8297dc30544d485e123c8a7a1993908c5ebe6cb79318),
  (0x2cbe8ae338cf2e672a63649ba4bd3976eeb0b9e324c7e16afdbb126a9c898e38,
   0x2ad4f003ac6a0942fe245d6499c22680fd4b303affcb5e3602c8e2974287df10),
  (0x3e5f5c59a5963e857f42fc2fa68c53b6581bfa208c7006f3636645e45cf2472e,
   0x16b65a70880a119608bcc4a893be96241897f70d330f17cd3fae7cd717957498),
  (0x1ac86b32c2bd28f7692b8b564d3000d6872ba68d1737b069ecb8a34e6cfa6400,
   0x0fc41405f62201e8c4d794db40b8a6a610d8d456d06f8959cd1573d74ab8ecb6),
  (0x13e637f3e85c6236485dd357910944f66dd42256220ba841b13c4e21fb86cc29,
   0x0ee16e26935679994f97e4c91b4dd5a0871420e07d4d41d9393ed2d6d1952520),
  (0x1ce7779f3e3215bb1029108e33725249c78e82765cfe52d718f0e818b67f78c4,
   0x2848c67f8b86351ea68451023fda00de924a5bd3c10ab2770a3c2c7969f47def),
  (0x205a6e79eb30e51521b0be138f13ee31fc9ee16d1e79450c785a00706ef40a19,
   0x1396002296388e7326dc47f5a4c6cfd4e219fd76bb44d664109b7b3654cdff92),
  (0x06e29444081967d2206d133e738788b3eba3d6d6ab748634284feee3dedb7e0a,
   0x396db4421b1f998e7b5ec381d868ecdd61b9ff69431d6c7e32f27745dd5dfa26),
  (0x3ba138ab852ac4c2428f036b3027e4e75dd87f72700e6289f09f292509b3435a,
   0x0f9d1a6e42c7af7bf056ea85d9a55f2d66fba519222a5eef31eb6ef7e3a663c9),
  (0x1628f8478492257a516251c1cfd3cc573c41ec81bb2b0bd42ed8b60f5a7d5c4d,
   0x22ecd6474c9d8dcba5c300a6334b50719f648ee054ba1f5d1028dea0df493ad2),
  (0x22de6c0052d8822e6262455549b8a7cf2490cfbdef1cb8deba78884fa618b4c9,
   0x3d9527438af5bb67d951849ac56ad2eb3ae57da8c6fd7491b574d8b64eb4f13b),
  (0x13e925ee106a6648bde3a652e15427f3b560584fa159372a423b21c9a9aee502,
   0x06d02c9bfefcd300003e2620a935dec41aa49c06bbfb670f21c083c5f0513cd4),
  (0x34bcc380670604229c25b2b9425b41da4f7a9588dd948cf41bac349a3968df9d,
   0x3b61c0683a4ca1d11e5d425e7b9cb97b8f2e135730ded5222e43e508767dab6a),
  (0x0a48d0cdb7aacb6dd4399e9c7a24704b874445d2f4cf57442f221515dc8d33b3,
   0x24c03c4a383cf34b8c76979a0183f56bad354f4c83db34fb3265a99476edb4f8),
  (0x3725ede449fafc271bae00868f7b65d447dfc98c065b94cc026448de6bde8f36,
   0x34e40ab4f07af6aaa0a2f3f5c5a0d64998b06931a1fac65c07842c74c2a0abad),
  (0x1efed5604943bc1ef99c8842c343ab5bf0dc11c20ff2f8e3c04a82a5985a802d,
   0x2160887f54e55248f5581a8cede7797e7a763e90131f458a2b7338af72b17c87),
  (0x1d5feb68ec9c82c01824a71312fa86624502b7c208684ba6a8067929bd788219,
   0x171fbfe8b8eabdc53802668ec3e2e9ad1ecb67c81a9817efb50c6fd8a0ff197e),
  (0x3d95faf6a3c0a23dfe30628113f9413e72069e76128adbf5380432cb1aa30b20,
   0x135124f77d938a2d1534bae8b0520e10a43225abab76f79a5c91686d7b705f0c),
  (0x0b74b4c9b3a587396b2c730b481ed58059fc166c4df8685bd8a5d43e0733a49a,
   0x20c672190fa4fd21817c634392a52bf1280b4dd1da46b742f7c3af4c034be968),
  (0x1dcc4260292ab5eed9e9bb8c156011848a3adb6c635f69e09b9a5d85cc8ccea9,
   0x1b97d04235eb620c5fe442f821f2398ed0b2d8606baffadc1291c646f66d6966),
  (0x388f21cdbdba18a855b68241f6b5571415d9a0c5907513d4911147ed8621b0cb,
   0x089f3734b0142b1d673bb0010480c230c659dca1c72f718fd7f4b6ed57dd0be9),
  (0x2f1e58925bfd9702abcc16b85b13edd3ab1ea6922b23fe743fefe21166f064d3,
   0x398a1f1de5c2a3b52a712c0a2329962a3b8e60606a62c9d3e1115ff5cd6b6e0c),
  (0x0c9b5c3b99e5e2e45a3d8f22519248e51834e411a9545d74b1f75faf516c5527,
   0x1c5475371a50921977ea1ab5a6749b123d1f2cfdec1d9f37c5191b97cd4c9178),
  (0x20f2231c6b91756b12252bc6825152c23818af8f3f8a23f9eb48bb7cbdf0eca3,
   0x25f5aa8d7ed0e37a4db8fc10e0e3e9a365073efbec7c88ebe56cb77041bc64df),
  (0x3c9f46e69974ef0e0d74e3e1c30c9216bc22de23d3184f3d989d1174c5b51592,
   0x02bc1f245fad07cee011197f54255452da0af4d4b78777b0ca71bc9f274ea68f),
  (0x336844df9aa052058d9b85d3a5b2218fbda09fb9141aed66f66ee106a081b017,
   0x0dcccfa2eabb31aa462566515a5b5bd26526eb8d8a98355e21cb9ec27a50283e),
  (0x25f4e3ba66d00bd2ec30c72188d4926fdce74ffe459740a9df01ebdcd5d51078,
   0x287accc2aba7dda26a79ae99419d2023f1aced4129c52fce1aa4cf28305dbd48)]

/-- Part 9 of `SINSEMILLA_S`. Models sinsemilla/primitives/sinsemilla_s.rs lines 8072-8967. -/
def part9 : List (Nat × Nat) := [
  (0x07ea75ef2e5510432366fd0c9845d326ba594171cf75314af6c967b161e43701,
   0x06d8b88147e9e884b1755fdae24441b142a7f1d38df718865f6ab3631d5002b3),
  (0x0d9da8ed2348f1d894f5d9bc1e38d7ac9d28941163cf210077600ee12469f797,
   0x2c6e26fee783b1b64db4569ea5be98fff26f888e41de250d9dcb10457ef94381),
  (0x0060218326a9b20f56fcef6ac5ce9b2162b64c04daaf0edb825221178b68e77e,
   0x37b334ab36d13b97d21dfa9722b7899f2c648722e9b2aad09381f756c75857be),
  (0x164fe5ae3a755ff17fb95d59e14f9ba1f481bd41dfde561e1dcad2a7c9ac257e,
   0x1f917ad23c722938328d6539b137e8c0f0a2f4ca240b67bed85d238004ed04b9),
  (0x041814fb9b1b1fdf6b7dde6e5dfb8e86afef22d08a93c6bb7c1a1f69511dddc8,
   0x349b497ae2dab674b74aeb62bfd2085dfccd233e1faa328cc2328d8d5adeee19),
  (0x024a7f47bbf2edfb9ffbdfe7bbaf4d789667cea963210dfdee76492ede058c40,
   0x2980753ed2a01bd5a589745bf70f31f8025804f1e97c93062798945354c0b6a6),
  (0x267466647ec066ecdf4ee87a3da70225c7d43d6874e81a99c21779eafb8dcf1f,
   0x0af168b82ce550d03490d2b316e4336b2597f5fd7ef0e0339a08438d3e6671ff),
  (0x3ba5ab897c0592627ea48cdaf72c21d57f7d4d51c42022879ee73acead81d7b9,
   0x2305b1e110ca8348dd497bacb2f8f53350187079ed876e0165a72df6e7af1f62),
  (0x2e3f0e84be82a9360197f6a1a5ec2aee291087a63558342c7bb8856e6f810866,
   0x1b2b2c742c05d788f554544f90599b7aa6a3fdcbe123531f24d24f23defed26e),
  (0x23ca5427dfe6fe96261a0baed90462337ab0d22c2c7a225d77aa8cc5e75f61b7,
   0x2dc138b3e758ae9fcf207a1adda3da90fbbcf05d19e044683965f1268be5f4f1),
  (0x26630dcdf58ca26b95c10d80955461dd0ae0b307d947f166e4cdd4bb51f13a97,
   0x006be5d23475d4f0b53845ae65dcd7ef21f1ef67603eb2b9ec6976ce7f25e7fb),
  (0x1bff98493f9c61f3eaa248f9cc192e8e7b6fad60d7b078d4d937daf5c74d37b5,
   0x14970f489ac52a8300af520006fa74cc1631ada784b0c6281eb4de71699379b8),
  (0x0c9028432d3d2ecd165699d8a31c48e56a0e125bb3fb3153585d8ca2b07bc36c,
   0x2aeaf21d78e42ae70b281359fedd80f0e75f7c833b31090637b6c3aa0a9f0553),
  (0x30a86999b4de080223b79b3dc26f956e91e732ad153dfbb9f905b492f098abbb,
   0x290c7b1ab364d9f0fcfcac90b0a924bd3e6a1ab7cc7f76f7ab981e4aef1ace80),
  (0x35f66aef3f875f471298314c1048ddedb8f64793e3fe9b0289d2590314952310,
   0x182a04c661a53ea5dff2a2abeb34d24d02e558a88b63c5e87f09c9ec4e0b9a00),
  (0x0ce6434098969f25bd745aece134f4d373018bb7d60b54a877499a485a8dc3c0,
   0x0fdc1f1390f2bdc31f1f97e94a953ea73a7b00db2c5b71bfb214a94aa5e85ac9),
  (0x3edb6eac7f4a7fc3428c09b7ab6a19b0b29c31f6a23ee901fd7b371236349249,
   0x1c3c6b898ff4fbe6b027de87dc3cabd6351b2fad6a833fae41ae5f6233d039fe),
  (0x33df087bd1696b334d440486bd7f82e06976f60ea7ad6a4f8579eab436d77379,
   0x17493c2aa576b53e4f760a947173e72a6c803c985ca9cb72d8ae253e7704e1b1),
  (0x2f53e65cd6706b69866a5644f7bc24293b111e3214167ec70d8d9ce3bee5d2a8,
   0x0891e7a67b7aa04c8fd1441f32495f671c200a223360ac52c9bca98d532754b9),
  (0x225cf8a448fb0bfc3fdb301cb124359ce9bdf7b7365fb28033acb0c23336e65e,
   0x25ecf8379bd534fd0abf86e733f6586525cc2e9e5ef53cac7bd0525c7c0137f5),
  (0x30c633cd5289cf7fde22fe696b6705a3f92ad555fe6645c1195974df433a0d39,
   0x2e05a44358f8295f779505627c2907b61dba733a5d1cf06f2de206ae215bcdb9),
  (0x035182c5aa5793ea813aef8867ca27f233a7ac3433839ad58c8d3e5a0e9e27e2,
   0x23d7f63431de0e04e4400d5832d93b4f9492ecb872254d8fe37ad32805199e75),
  (0x2de8408ae87c55269b41402f8edd74822ff9e82a28131039ed93fc4d8b7cd2c7,
   0x1e97cfa53430ce4f3b26c0d81fb17641fca51acc7aa98a6f84827aee90786f5b),
  (0x1bb49f7d2f00992deb667f0babbed5c68b331616df48b16228d83f6fdd302e4b,
   0x2388d495aa9a2f14c7f8a778378a878e992a5645ac4449a48f1b258559755b8f),
  (0x1033729de32a20e53b73c91107ca0590302e0976d09cf5b0b3ee832bcca6e15c,
   0x04e9d53b9dd70353d9385b92c1b1eb7b337605c3fca4da48824d03c962abfb97),
  (0x31765d48ed2e8f388015ebda9a0821f7459c78643eedfab22a31ceea2bfe1b89,
   0x3fb3ea3d413f600f445013a8b51ea17fee7e8b8e60c93161bbd2e12e2200a567),
  (0x32751af6d47e89f4782e777faef9a1edf38eecced9d190db5792e1bb65af5499,
   0x2e889fc71cfeb59046ec529c3e3ae0254cfcfa59c7973faa05588657d79c9fac),
  (0x1f53db72546f88b1e8c7f8c9f534a3a6dc4dad2ae1df90d44f365a8927df98cf,
   0x327072d00569db081fbefca169c2c1f755f4b813b4ebca44c521f71064f3458e),
  (0x1626a0088065ae1f31e5618e64c967409f1138fe5b82ac9be51cbf5e4534c30a,
   0x3ec9c8c2307fb4fcadfca85297391779589e4ec74b43ca664e4f35ca03623b2b),
  (0x2badb2140ca167ef216f0ed756838c138cd278c757d7bc6be55817722b26fcc5,
   0x10c2e53ad289320559becb389bb37cbaf12bee08f085ef2b7b8e54acbde45d74),
  (0x2ec8895aff5b5376e7aaa199d7b3f2beaa40a1b1c161a6f505bf6073a2cc922b,
   0x02afe3c9f6d885240c92ae6b73d0ddf09ed08f7e4c30d35421a92a6f5c37ad34),
  (0x2962bd56585a49b25e0ce5ddd2686d5c16014441ab1706e9a3641c632ef7445f,
   0x175a30c99d0bdcfa5b5ded95d5a1587eb33701a1f6fbf2c68f3339126908c490),
  (0x2b335ef2cfc80c8345bf1e4342e6c6688cd56f8a04f70000f9820b5caa8984ec,
   0x26df2492c732e56c49f8808fb1f82460fc8d633cc5655eb8d28e8c9aa973eb4c),
  (0x1f391c76d2a587d4f1b8ccf579597c1f7ab2e6da61481b32cc02e14aed1015df,
   0x0212f279996128a4f00cbba64a817e598051d2da5db8ca0661618e3cc900c078),
  (0x1b55f30744831944774b46807bce521ec72a123830744e06ba12bea41ed1352d,
   0x06d133c4e935ed22c3693735482ce33f5018a2d2837418cd433905b57199f756),
  (0x1bb80e9c7b1ca7737c98197d30e906b963c4572c834a991117d2e05542f89a6b,
   0x24629d6c1107633922e8e711493b46f26030539257bb182b757f5677f5dd82dd),
  (0x22609c32ae8a2fe1f31b979be4faa4dc5a14a6ed8e5a164cc22700070d4867fa,
   0x14f1bb3e19ad98528ee08603e206e123768f7786ddb939e0cbbecd5936ba6c7a),
  (0x230aa792feb25fa68fc1798680753758d12a6df12f9b018336ccd0fe865e1f8a,
   0x259675b56bcd40edea2a650297349b716f0dc5d3924f46762489a5cd0cc0bae0),
  (0x1d844ec69215ea8499e9d9dc1d39ead04aba0e21bab90092c111adf614ce6cb0,
   0x1cbddd75d8027a0771f21dc94a3a0837166d7fafb4f351da665f32ce34d63a28),
  (0x1b4d41602bd3ae103c3a271a012b988b4f4f3c61ac00a4f7bb160c4fb4073444,
   0x2cc4b4f62b989419156e24e6a1ef9b96d2e6eee7d3df236461f2911222f7b25b),
  (0x37d60e5c6f9b157d32319fe1ccd65847fdd35b06452ef10f90ad379ecf995052,
   0x24d1173987a0150f0022f7042bc54b86fff28aed9719e68fef5e4b6d8a113611),
  (0x055aef123bb17975fd94bada1b476147d78077585dd172c567b6a0045b76df29,
   0x399e7d93333c9f5c58043959aa1b5cb4cd4b03e59621c0cfc40d7914b6fd0059),
  (0x39e31af0f7592d9472b5e138e8718594b6336b7ce2d01c29e98736b66ff3a8f3,
   0x39a561f5b60e13ce1fef7c39245df66b4d67c9b657a000f82584aad2a9e96991),
  (0x2722d4bf937a919db997e0d18edaa7467923949dcf92266e12a82bb3679d2e7d,
   0x20b27ae6263fb41ad82e903fc00f3f8b25a7833da73398acdcc83afd5c797391),
  (0x362d769b3e3b429bf42e0f1e21649dbc64560e73b84c0532ef97ec2a52ecaaab,
   0x1a8d4605440e14eb1b5333bd832f9d478319319a9dfdeb24a84945d4822907c7),
  (0x39c3c62822fe60091aaf3ba781024b08d39b1ad95e1085892cfef055520ec484,
   0x00553f582ea2b9d891c359750a2ea62842960ed494f2d87945f8894e223267ac),
  (0x3a354403855aecc72569cf2d55e1398827597dca339031589dd797f4738da24c,
   0x2ac01e01122f2859e1b6b3cd016d2c043eb8606a39df7bba8cd453df24218d58),
  (0x3e52f01c752cb88bbe1be89bc34f92fd9235beb6d261762005eebec3ee74bbef,
   0x3d5a5fc811e3ba39092e9e05bffc9a22c74a97e4097ec343f3a951cacd8aaf53),
  (0x3e74cad749d2c6c63c7876887698fc9b3ef1eb326ca3e72f0ce53d2cd5383a58,
   0x3d138bac67572e90a99e49e245a68dbe3c44cdd9d43b18781f1cfaed0c9713d5),
  (0x3416e9d412cffc584467a1980e0815075d1b36e6359e06e583f7da35d76ec72f,
   0x10fad4cca19a342cb416bc2b6319e9c9b0220ab4912b7d90273009078ed47765),
  (0x35f2987ca27e1776cadf04d1399543e992a8a18f02e88e44a6ce27949121884f,
   0x39ea3c5e6cb847ec91bdd4efab4e02d4befab1c9dacb80284f731ea3e5d8f863),
  (0x37057fe5eff16d4b07c4031f7d63bfdaade36a2d1046ce2fba0ed6389040a526,
   0x01d7c1697b90185009bc83c8602252ca3ec2fac7acc4e22ccb3dda9a230f7d4f),
  (0x1a8bf176fdd85a165a45ea8c518de8fe06e7bf78c301eb68031622757062aa8b,
   0x1853c9acfc181ad9decf84e113a6493c7c2d265b75a5c58e1de4ed9762613da9),
  (0x0b415e4fc50b4723c5965adb9056e4878baf5e54f47a4c6618f8f690da5c857a,
   0x2c2a1026015ae0af37820e10b3da73da3bb8512d7b1ea04ef7588e8bd1c15233),
  (0x01e3fd81583f935011b63346fe701c3189190bf621174bb0c4910da2ab4038fa,
   0x0b0a7f8097e2e6cf52a23f16f37e16121ab5a27be45ef81edc6117c098c1601e),
  (0x3d45bbb460139f326f6f0d8241c1d5423cfd2ac915c5e15e520b062fe78ae7a4,
   0x05297efd374c32b5622a376fe18460c6ef0cc0f256ab5321b1ac5c97c97a3879),
  (0x2a0a7edf84f3ca0ccce7e4139c75ced4da932f28b15a50e6c22649734c5fc60a,
   0x28ae45a028112280c1db731f15d684d777636a7634f8eb6297e9ae4dcf51e9c6),
  (0x056e66821209f06516f21379295a3e85d5fd96af3118d25d48e17904526ff906,
   0x2bf069d1a8f4e19501243cba966fa69bf28caecfc75736ed4d093b0c18f04853),
  (0x151387c45019b2a842d2fb9b62d4bf6f5fbf9a9e292c3feea2ab2ca33f7a8c18,
   0x189be9b32748ccfadc17e477e451a5b5013bc62bf18c2d5145de0a99709d8f92),
  (0x34155509eda9fb3a57b15511fac4ae0bdde91ff00a989f1eb1d210c0c3383697,
   0x1669795437291904db880218359b52b60c388030f51d11680336a0e44d04f2a0),
  (0x1f78495439553ffde38bc7e1c3a3371e042c85b5e75cbffef7544d392e15d646,
   0x1daffb55fdcae9bbd3ec5b00f101a4a73447f0203e43a221b3b003efce95fe55),
  (0x2d7c10f11f8afbe2a19c1daeee9d22791f9880730dae5fa9d022b2e43b435771,
   0x0b7744c88c77fcbff0e011366a8b70182af41c7be73cbfc3e53e4dc4e5c69e51),
  (0x21ad7eaef18664a9015890c16331430d3e31f66058dfeb969ed7be623b40bcb9,
   0x2472290e1d0b53b2aea4ad0ee1cddf9a3a839c1dc46b2861499785d6de57f60b),
  (0x39d02f80ee2f5fdcac167859a9c266b65dd2c1b816cbcd57a73e32841eb0d3cf,
   0x3105d9d74eb08afcde0d2c5483af3f7aa267d464ddb694cef33db52381f408e5)]

/-- Part 10 of `SINSEMILLA_S`. Models sinsemilla/primitives/sinsemilla_s.rs lines 8968-9863. -/
def part10 : List (Nat × Nat) := [
  (0x17e17cf7cf73abce783936ab471589b0b7479d5ca4b95a800f06d3f2ae51741c,
   0x2adb4c5b3bd66726235f5e1ca1d9dfa792fe35e7744d16a8228e32f07e390ca6),
  (0x21dae5c60cb67703b79acf4963a4410524dab91e6b289f045819606632663841,
   0x1796bb6446b905677e2e531d048b6ae286b69d9e74677eb2a223487e6406576e),
  (0x181b89961ce6dbf227354e72d3b13274e7439460131cae9a6b90eb45561d04dc,
   0x2af0a0cc80d8ad59f48f14990aebf4ff17b957b0374b73214393a5746e7debcb),
  (0x05b0faf1c3150a4b50f6242a40fa952523936d2f411a1f978a86d29c9a81c5a9,
   0x381dcfd0191844b4c7fe68b222e1cf036ed29ae9ceeaefb1c70c9a93ab831c95),
  (0x2b4d471978114448935a02dc9fdceab479e03de525cedab67d5a31275dbeb7d9,
   0x2f243e8c7b7f469360ee48c04796a28ebe919301c9aa5f18767378dfe2fe1eb2),
  (0x3c4ecb866f247db38c28f55d27718a04778cceb28a49ffb458acfcec3b6a6302,
   0x2c60c874457ad78e0bef5e3d830e022085406cc9d470f2ed7fbed4df7b3ffc86),
  (0x38c603c7f4c2e21a3c64e299b19edf3f3b9c0985f979e3852fb1b9b7f9185676,
   0x0ce619cad57c10858d0cc2794992b9b61a144a9d9ca69b21b3284e4b3bc334f9),
  (0x2d012113eb7c976fa49535cb8d85c2e79f3843fe80644c5e9555d1a8a695617a,
   0x2966c1c612e00292edaa644341d81b4145ddd92fbdeb1fd5b4b772bd649150b5),
  (0x0bef2f3a5b4a70a6cbcdb97b51c200acc0c261efb258de48609500b2ffd59f23,
   0x05f031fe225fe8c90826406cef5ee0203c86f51d5b515ddf69f9ffcfdf73c226),
  (0x18b943fb57beafd47775a5d8d07f9f27f554b5ea55e939ff314dd52e0919736c,
   0x360d025e38f602a0d0606006611bcc4ebd1ca9d6622e8cd2f5631374874563e7),
  (0x196df315b59497164289a1c448cdf4e043e374f88b830cba399e2e744e2dd3b9,
   0x10895fb440febb7534396d66d9a948fe21f22728b89f4ed3c2886cd6673f4deb),
  (0x15aaaa6cc1b96ac17273943a84cfd15ec95979504cfced504316a351fc82dd4a,
   0x34ad9d2adfaf5b69421d4fa714626d44ce39dff1cba5dbbb1b99d676512b796d),
  (0x29b9574464e1ddfc840ccc9d3a3bcc91cf8b024fcfb5b7cf49ada6d1104a6eef,
   0x0ae6d491c1bdf3bc1d513c672d6a83fff93d800f6f2144350b87716a708cc280),
  (0x1d5addce45567eaec7ed2eaa6b580c1409b7140869c40bb0475e41b0f1fcc172,
   0x01017bec5e9b8784377cc390666748ba18f0a0924a48ce6ab805a989ed0a19a9),
  (0x1a161910f3efd2a865735f9d0d64ad1ecb89e9c615068e77c424869ddf4a4fd1,
   0x18bd33f62cd7afc24152f5a5afcf0b33e5e26cbbe7933cd11c2aec442e96e2b9),
  (0x1c81abae085ebbdde188e97afd705e9a629fbe6a9a0813b66cef2ed40f1262a3,
   0x2c11dcb27ed5553a7c9ce5ff9dab955d051ce812b7d38e726b64e32dd83d14cc),
  (0x1194f3a88f8d20d86ebc2d218bd57856baef3528594999b5a486105365437c5c,
   0x1f90ec5d5cdb66c91321fe4b4bc8ff74bae8db7366954f2cc58316cf02c60b44),
  (0x29e8f7f217ebd76f1075ff0ae695322ea39f04d57d40d1b43e788bbc500b061b,
   0x12feb0d19689e650702666e6dd9746446464a70df53b4597bf380b796b131fc9),
  (0x3ab284aa10437b119202b9522e659ed7c50501d2b5ea6072fd132e004e5d4971,
   0x3b52c98c59db48ecf74a5a3060739c33550fb47d5648c5084de08d2070f7f5e1),
  (0x3173b0b5e1b9bcb7cd7e21936f0aa501d4cb8d312f6ee625b56572c34d9df266,
   0x2a4255860ab7f2de1d1afceb21eb295a90d503e01a249fa07bb70367d936382b),
  (0x30f5493e17bfd471d80d50430b037bdba4cba520eadb5354ea5bff65c9da428a,
   0x30960d365f12d42af83577c5523e9c665d126ed0d9a32a25a7520e7fdd99dba5),
  (0x335c045ce3aca8291fb7b640850150b1b7732f2696776e1266985d13ac446aa6,
   0x2d23477478d69f8c292a9dfefed2495afc149622110b9e4d1134b8f8bddfae01),
  (0x2f729fef7fb49c3d5cf6d911d00d40809600e5487eec8f61e697a384bfe0e7b9,
   0x35ce72745aba11990a5dde1344a9f62620a3f582850f75ee6f2744cd0eb3ccea),
  (0x0ad774ec279ade59907689d2d2fe41087e96b0af9e4eeac17745e73321ada466,
   0x0e42e600a7884e1ef46cd397277bf15bf59ffb36952a758eeb8726d2fa30f945),
  (0x2b7b81a19e1af147fe875f93573916bab171695f50a8bd6242d7c6e81a547d39,
   0x1934b5679c19e6822a9c0fc4d3e9aaae55a1827cf39e06ab5479f6bceb587cf0),
  (0x2cc94cc1fe1a375405e3f7d59d0f5e8bcfa540750fa50007e18feb78018f21fb,
   0x08d2cff6fba55d5b3c2126cb32f69c68447f7745c5a9deddc2d2f3248b4cae1c),
  (0x1973ffe7d02f0fa4e6cc866afb3c80e3e08fcf9dbef63c10b5d85390444cc212,
   0x2b496a88af43e434c48b7633c798f59710e3a8f5d79c3bb2433d1974b639e380),
  (0x350918664a0ee32f99d30abdab7b8d6221fed657d107f6306be35a9e46469b0a,
   0x3e6b3a1f16bb57e25c3ee7d5a6941082994cfd440535add30454ba7b2b388723),
  (0x1ba6f2f898ad5de0d9d99177ac4103a2a3b49290844fd1f0ffb6e87af4f9273d,
   0x0fc86805b9698fa4b50d409db3424e9547bf5d921c697f482199f2d00e0a20d2),
  (0x09002d7910df23fd544d49b6d5febc77a85c131e8f2ee5d136ee72e626d616f4,
   0x0a20b646a0fee65525efbc62b972a83cafed4d2637917ef3768fc64147a7920b),
  (0x2ea120a4bb61d62b26cf9928a1403757c6e42d869a1c8a6fb83e09de67036a2c,
   0x0047cc6af224fb190c6b29a851344bbd37a9d89991a1fb45c7aa5256b121eafd),
  (0x14bcc3c22e2eb6bb6acc27f8d28b015c246aab8d57f7eb149c0e5b8294698c2f,
   0x0cdef9bd324e1df5779e13d7fbca9d3490658c677b1af1a8bcfd9f659803ac84),
  (0x0651e474e0d811c6209e17491f958e22e18dc4f6f48cff602fb55dddb49061f1,
   0x2e390f7abc1885b64ad92ead3d43a19435a0eac6b2d30210adb645c2ec3ccbbb),
  (0x17fa61d605a589879d8940f9b2d3779948dadb272bd6331823caecf84a998786,
   0x32f10c7719ebab29ac10cf88df832ccafb0da01255ff62bcc88f47e11d268daf),
  (0x14ac50c66669ba0793672ab2d8e8a423acfeb6c589a5d8783195102fc3279b31,
   0x3042845c65f382fd8f87513a2560889783cfe21871ea97168454fc70093ae70e),
  (0x205a0002d292790eaae728f2e533dd59aca48396f097f8f9e3bd44e1cf62b948,
   0x3c057dd9752355c2932ba9bd22ef0dd1c462be08e666c34c3747573a6340da58),
  (0x3423225aa8b2648c89367ad2a6da3eaf6252732ab6badc7721bc7af63b01c7e9,
   0x0267f6598e419d578e53deb053bdd03f97885731a6b5c21ebf9f96b4d37ecdbd),
  (0x3f4b7c45f7fd0a5b64e9f7243ded90cb0be987cff76b791a16cec52599d84e32,
   0x03ed4df61b9b8e2f05f5f6a6f4e432350ffd7f14c471c25e504df52d0a5e6f9b),
  (0x08e23b7f80c4f1ce58dece3383ef9bd55408529bd20778e44d557ecdd9bcb076,
   0x18b01033f86c5b2d4ff181635458c34c6f3549bac229e7de2439550a1d3f5fe7),
  (0x33609d961cb9e4bb487d3e3898dead2fae32d1c669f1ba877932981f1490acb6,
   0x314af599b6864f6a0f611e548e5d60713a5ee2d84f95338e2df5c1079de042d9),
  (0x3882c274d10f9604b3505e550f4155b386e7c394398cb2b012ec74dafb344c9c,
   0x354ba5afe4b78ab57225cf875deff0bb7bc75c5718be841704755416a7403cc8),
  (0x1590bf3db7178a0ff9d3d4e7a26961af8a013bed83676133b9288c66ae60cf6b,
   0x08b80c407a4ec18f6c10c99c784a4ab0ffee8de1593f593129886de5e09db63b),
  (0x115d36dea116391563e8e5b2b6e098a8f2667542331683e407ef5d8276846a64,
   0x3061050bbec9728c43c3a2dc0dc84a1b739c6e085a3aacc1f5cbccd46981b817),
  (0x009c265a01e4bd2778d45bc761b44fc40bdf4a546f11477ba78497ba84c49897,
   0x1cbcb10c31c5a6ce0476e74ea35fa96cdaf541107337722883d688e23124442f),
  (0x3eb2694409dd347a44c48ec06e4c4d5bddea5b91af1fb16e815f09ef7425c941,
   0x2a492949e50a54318f410471fa56764da6374ced4fb98cd25075853b087d36e1),
  (0x31e9f489537302523e9bc8a676eea29d5c80bc62be0c4c202a4494c580cac7b1,
   0x3576b8faeecc53901e0383ac5bb13b705f342d7a6dbbd7690cc599cc2d44795f),
  (0x1386f0fbf8be9c27fc843f6a5d933592574bd31a7a88fc470d738802f12c9a24,
   0x1706327650a0f0365995b4cf15cc281061923af415087a985a23540a296cf044),
  (0x1df502c550b8da4c6a8247158027d155d63d94d08aa1482f2653f15585dea90b,
   0x04400a84ea35612f8c2fbe33eb0004e40d7d52bc04b812671c94bebeda62eb37),
  (0x3d29b2f0082a5564bbdea8df0f7dba1c9b794d4d2397825f5c1b8f5256594536,
   0x37bed4a796d36ef123e94e6b32ae749cd8fb2e8939467e27997ae0bea8e8c381),
  (0x2de3dd50d3484b87a74227da418825e184b6ef8600bf22192b55fd7249a0af15,
   0x2781cf1af08088bd47713997d6b66fdbe12bc342f5ad33807c519935018719af),
  (0x165892f62d6cab72b098b03ec0e2bfa9ba55c9eecaab1684d6b58567e42e6228,
   0x016b7c55ed756eb4954a3e23b88f10da6764b8ec87af0fbd7ccef3c27004750a),
  (0x27d0c30bd4bd22bab0d21f0ecc5c2ee8f995d3294d87564f15723792f4416a81,
   0x387412f63a242a9220323b49b05323ca6cf3d13d225603b9db2cfdc7ab470473),
  (0x27f59685eb77ac7e46430a67d500a255de0906185b92cda5996a0c38d044b83c,
   0x3285ddba14ac1ed8bb05a59485a4b33ae561315feae61f63059a236edfd15edf),
  (0x3c245f478e0ca36c97d632a05a8f3a2bd2737cf6b421aa39e549c0d00ceb9dc3,
   0x03a2d69b16901c155affd1542f2781478189e00c562023daf20b8a37aa4a7d8b),
  (0x1fbac06405f9fd83ab5238e8da300add89203a496826c0601db8ec712a4363b8,
   0x38e548646bbe709c1af748ffe310304b4d74e271dbd42a3a35ca286afd3ec748),
  (0x04b5d208aa2d56950b30d99592dfc3ba745511cb9655ec109c3f6480c41746a5,
   0x06ae836a74b7d7b3e5bd3253815e0161692adedbcc21f27be3fa148adb802f0b),
  (0x187a485368dde36c950def5fa5bd24cdfb9a4eca7e714fac23a67fe7633a8233,
   0x2bd68f8fe07bef4e40d0ef010cf4ba17935b607247447eab4ad9637696663e54),
  (0x3a76010b80d3c8b0e32d307bb3dbe0ef607be6c4b9b9be5de26982a7147b8c18,
   0x19e5778d98767a46795b873d4a5a95bbce4b2d6b49aa731b06a9146ca6748492),
  (0x3551abbccb492c53a4c48b2612bda088546f8eedd94662ec02c9e5288369fdca,
   0x2341167f494d04764cf2bc5d2dd15705694373500ca91961dfbeb70429a1b4f7),
  (0x32988eb78bd81bcce593e00b858858875a073489e7972666aec867d58bab356f,
   0x362fd3bbda489c11925e3c811375408d53f6db87cbf9232fca3c443bd127bdbe),
  (0x05eb74baac186eb0fa127c4b9718324d162b7969422eff0a601085d0794ce3ac,
   0x1133273191bb93cf53e4deb734a64e7ad77b985f9626c949fa9c617637addbd4),
  (0x3e56ae121141fc99834ca22bfd163870a9a6bc5e2d24cb9296c9fb1708b41634,
   0x00e2da2106b8e3c03e61aa6fb66c8a6b1e256f15ff603b9350bb4dbc163f9f93),
  (0x08a00b3841741ff4b0a9fa50a01a72ddea85bf04b59a779d42dd8b7923b6b513,
   0x2717cf1f7f6dee6bd5fc3acc8d1b3611a14512f267e715b964cbe0143f1eff9b),
  (0x1ada7ad3956c621d7304853c97439b31bc8ed43451c3477811e3925e0cdbc33d,
   0x393521fceb2e3365c00fbede8499f9212345cf1573cd6078550fed057f72917b)]

/-- Part 11 of `SINSEMILLA_S`. Models sinsemilla/primitives/sinsemilla_s.rs lines 9864-10759. -/
def part11 : List (Nat × Nat) := [
  (0x1b00c04e8168266cb7c2fa0632323f542676dcb38d85ac030adccc3c16a3f235,
   0x10ab0d63c867c9680de439346246b2b264a0f521877f658922b8f975c6b26381),
  (0x3ca18a548248dce341443ca136407bcf28ccc6c510713c5372ff4d9f054ecb10,
   0x06d19d7c281728120c1f22de8fa99eb852cf86ce4024b4e874b58607c4f623a9),
  (0x315d549f290d49aad3ac8de75dfa63854c20e2cd430f4f5334299ecb1a25b41a,
   0x1f28a45d64f9644c8872d56bc32c8a5bd06e44172b5915c5950a7a7a739101da),
  (0x1a7d2578300ea6cabf71b84066448a6353e468e0ba89260fec62b82b3f9cdd5a,
   0x24f21e4210b541ca3850e370e03eb2ece753284b90583e43dfd2eae179523443),
  (0x32f211fd60f56c88cbbc6a3e1d2e3e472f84257d240aa99b396069f3d739056b,
   0x25ffcd0947d849627c6998c3762e40803c497f083d5f1ffb8993dc0af3e701d6),
  (0x028f6828bf196ab8a0d74ae0ba94c75d32d773fe8a8d769a00ebdf7aa05e0505,
   0x11d16e6d2222d9559a3926becdafc085f4397e095aeec12112400761dba1cb3f),
  (0x0dc964a362263ba58f6671043f1b0d7876e131559fb9e4caeb43eac8a45e50fe,
   0x398179f229f077add62c6c8430df277e78739d1113fc182d2443a28098f7d9ea),
  (0x110664a3a51b428d3a145291dc57a3a4e879b7d0d4991f0e3f3b83e1e18b41a6,
   0x0e030d598861c631418dbfef244177eb695ebbbc7b1d69ac9acb835dd793fc7e),
  (0x2460267aaca9b888041481382c6ed6cd86f740b1a30b1824676c1bbb3d794a17,
   0x2028854fc7fef56384a5c9a19518d64b0eb923e6bb9072e74b8e28e4c2de91a3),
  (0x2a3b4a5a60a8e5891bb7d52fe215849b9bd6e713a2a044f1ec550b1bb4b35edc,
   0x2dc38e458a44967ba4a5f49106db2a919606a95ffed0ec3737db820947f9907b),
  (0x09804e29e42413a97dfa04ff1867a66b026da7c4f3a12e88ac403499d9f9eb6c,
   0x35941364798f0c203696cdf0cf53c4005ddcc1fd746134bb51b5218c3a0a055f),
  (0x3ab1effb2622e180562e9094a407ac852c31d7f588372988e6a77cfc25cb3242,
   0x26f7ed5a5a2f099a8c1ae37b63f2d3cdeda348f9ba672219b424bdcf597c6557),
  (0x246795ddab7cc74eaeffd44604bf08b9f91b2b7e3e36bebcd297863edded7212,
   0x2771e939209bae7a58787fed3075deadb276043d644d0408c71353dee975f704),
  (0x2e337d8a202102de34117ed3229333b58a736054b608fa6a06dd9ad7373d99f9,
   0x3935358f146f39bec26a08ce301a28b9d25f08e92b65b288c3ee16d0a73bd633),
  (0x1b8dcefdb94d06b2caa17ff12bd7bb4bb76d32e45f674c5d3f5bb50cf6efce5b,
   0x14286ba3312d4851cc08c0ee6947386b4d17ae692a58478fa469b0142c832078),
  (0x2bbc960abd2ef48128c2fecfbfc3355b03a47f233f67a26d2f3db3e9a41a0337,
   0x02234935d415a5e5875c9ff6a96ada2c2e87520148d5fc53c3110952b1212186),
  (0x3de2b1ecd97a180cefbee6c5dceb0fd66d554c961cb1f12636f0841522e256fe,
   0x18fc8e3616ba3090d9b43e8d6ff54a3e60ed38930c8079935304ab95aae69b66),
  (0x012723d314c89c01628a640a7eec8b84505e1f45ccf1dc380822d8854dfe69f0,
   0x2535137028dcf11f6c2f3bc218f39602850b2fbdd6e55bac7e4ef3cbd5d47736),
  (0x218609678d1c616786df15cb08ca16130b671163084d310aa13490eb3ad2a6fe,
   0x26606d63e85e94fbd2a4f058b90075094cdfa0729d4a5cde58de954b613d9043),
  (0x2300a9c8709cc63525cb866c89fa746975e46defaf35b5311beec383512e3059,
   0x0669e3fe787df81c7a6a763f4f920595fe7b289a3c6ca17b30feba0ad8b6dd3a),
  (0x3095294e9909a724ad4d1850e9182af44fa0a83c0f76c57a2317af7e2bc1fb5a,
   0x170ba10e7ff6dc04aabdded29f7dbf93f1180f20c588375db04c712bc02215ee),
  (0x2d1b3d964eb5321afd57702b75b7f29bfe5e19ff1cf2d2ea4614ca376411165d,
   0x2e8c5ef861fe9aeb136db5bcb3ef254ed282d2a7a65883af03b06fb18c5294d7),
  (0x011de6722dda04696a28f36b52a4f91c21fbe42a7f849fc579ccd5aa18d7fe0f,
   0x02ada1fa4596eb606bf0cda1270837536c9da709b02bcf854f0797302c53dc9c),
  (0x1a17a6cdff9bfa8b574f54b12560ee081c48974b0e3787a274f1d926d45e11b7,
   0x0c3b4e95ac95a06b600f2717320ed4a606a7f2265fff44b465bd430a18c26fdd),
  (0x127401e0c9204b1647c98071fe58680e34de90c8407d290bb18bafc626e62669,
   0x0b4f39ca545ab70fb86c76fe72e08b68c917cdc6686b1a9d332de7a52f92fc45),
  (0x187e651a79a4873218976a028e09c2fbbd5cf1b80b642192c4173670bcb9cc4a,
   0x092ce031517bda63642cb26f293dc2dd1934654ce813bf54ae695d7d5294c1af),
  (0x1c1a5d7b19a6351abb09cf238a56d2268cb21f86aaa65bb376628a07ecc9bc79,
   0x066cdec429fa02f4a2fbbb46607db4f6dd8d80827660c6cffe9f8731fe5c71af),
  (0x38dede4397fc4e8c2d184ae36719da6c0185bee053a8b2e9feba38994dcdfab9,
   0x24caf69b2d91f2f4fe652cce44c4fced1eaf43ef56613ff8af8c1a5697495a96),
  (0x2c7adb4e02790a77589089ac5ffa169e5cd67594d7fbeada050e23153fe8888a,
   0x34e912c6ec66b3d80a3f5f714d7202ef36cba3e649a82d97ace56f4c4889310b),
  (0x114abe4c6b55af86e93be7cc13edf94cd7f0b60954f33f618d2d8ca6933c4438,
   0x1fb5183865ba7743ea41857fa3f3188e48116b3dd2a2a698183762f1701022b7),
  (0x36c82048d681651d2b4d9dc4dc6677260a25684f653f6c8fa0828c60d8a3f578,
   0x15ee719624dc9c1075a08f44c578a72708fb0378bc18071be26c9196230ac29c),
  (0x0a80597f820189a2bfb7ade3819fe8997d70d0beff2be9a5feaa76bfd7f3cc18,
   0x27fefbb29d0a97b785e4c5883d14ef43efb03940c10604ee7c0c7cf85e73abcb),
  (0x34f34173333334f1f6b37923849cacea542721440e19527947c6a888684fbdbe,
   0x24217f52b1bb09bc7b7be1e9121b6d3a34a79c4df7a6b66f0a041869d2aadad4),
  (0x176490fe4fbf05d121500dc8212484f9673187df9de027defe01fde73ddc40c0,
   0x091d70c1c2a01886e3ce955b54a61af7ffd36ccc6e6911913e96ffcc83de2760),
  (0x085663dffcdeb718c8db742a5e855a703660d9cd6d7ca28cdf0c1b18d13e6075,
   0x26e99d383c41ba1a2b4a31f81d0a106fe1ab077ac6dae5a3dfc63b44bfcb4ba9),
  (0x393c90d88ab28885ef9d38c34590b9552ba993d9f77601fda55bb71922c88eb6,
   0x3b1a7e6431f5efc9a2ccf60a2cc042c5c3751a89e204ed7723679c6c8698dc18),
  (0x1741223b656dfbea1359c8b223c3a219d565deb46165426a01aa200393d81228,
   0x3b6aab30009e2a404347e2643653a95c3248d5e38e95e05c68a2aa8d99d26617),
  (0x1a018bfb3b21464df888a32255a9d44ed475062fbbbc8de4c401caf5b80bd7b7,
   0x2a917aea3b734a4c47ce290a490553a178a3535f8640efd45d8f724e1cd24386),
  (0x02c82b9cea98af0febf3dbffba88271e45b5bd00e4da62a9034e89dd99f26e09,
   0x011f4744f248a53452f8d1052659131d5544cffc3aed66433acaa2de6568bd4f),
  (0x2bc0f5d1292f66ade2660cda4417fa06b2d876d0fd04ddfde5049c545183a68e,
   0x36c6ddb79a5f7421458a25bce1c66a8686f0df5ac92c6a5498fa34c1c7e44d04),
  (0x3412acee8559e4cda1244665cce6d17201494b0fa4baea01309bb8ceeaf95df5,
   0x0d324da95111de3f7f4251841ec7611526ec3ff02626f929a00c80379921039c),
  (0x0222f1896b3090268563479a8a1c3a18923b758a75fbc2ae062349148426c348,
   0x1ed687aff5a97f813cd5300db8c85e265d6822dbc04c08046383b87a3a589f66),
  (0x2eaac96ae5728c2efcced80b20ffa67989a9d35680f350374976a9d923f4e05a,
   0x3b131337181e2cab58d6995b9eb61568e3346c5d38d5f584e3269ec835b1a894),
  (0x27f54f893962c0adf2ef6c29147c86d66111af8ac2490cd6d6263c8c8fab225e,
   0x0a9cf292fe419dfaf628f4881fc8b76e70aef850779cbfa3a8423c35185c5986),
  (0x0fcfc9c2bc99f1232500a58aeac635c678df42657b2bfc61537c08e13a1cf53f,
   0x3360810399b0a527633d47dd3042bb0e991ee318b485e3b931470e478fbe1b4a),
  (0x311621567cc118e5845473aeee97a3055e8b6e6b30d7aa2bd7a21d17f9896972,
   0x3a86fc4577b3f5245f047db9eeaa19212e127758c03eb200fccf5d9fb11edf81),
  (0x2edec32eef6964c0765e58e948b5d022900fcf132569e3929e931cc8c1488493,
   0x105365b55423da3c27d85ecb1931323898cc74a8fd6421ff5695ebacbfebebd4),
  (0x12e2838e4f99a03a44eca0c257ef550bdf8e0ddbb98bfbebf22298182d70d3ed,
   0x3db7b034049dceb4d3acf7ab31b00ae09d54b9e8f799c6356655b07c8d8ed971),
  (0x04e022d60b2c658982ed80f2e411a974ae7986b49150c67a10ba763ac8c6f730,
   0x0471d7951f45c1062153eadf50f503a8a2b1bfb260e1d64f088c79a2e8adc3e4),
  (0x0f660b475fce7a48b27e7401ff921206bc22530ba609337da0af6834540a1d2a,
   0x390913e56b4decaddb0db388856f04a85ed6ed9b624873e50d2d0ce45d341e91),
  (0x274b25e6d0ee28ac219810f0065a4746b4acdfb413f3778f931febf434328d85,
   0x0fc4ed1ee2fb3daafebf10d6f655de174fcfda7573d56aaa85ff5dcf2af80d1e),
  (0x290c0f08ae6792f192a594b7dd97e2d6e572e261762a98332c88682b0807fb47,
   0x2127232aa43431ff889fbe4d6071fc497828c11ab5483f9d9f3ea22a9fbde2f2),
  (0x2691bf94093ad9031c283f543fb699e46221308a05324c09df50276acd2f7fd2,
   0x1318d65d1c35c49bce94f44a1788600f5ff9faf0e36ed8c06af082ffff8c9733),
  (0x194218c3fe5b69493efb6de28193cf1e5251bfcf774901a79163559abe89bb1c,
   0x0d9dd803f612865193ab3df456970520735be3c2887f46877174f4c0cc3bede0),
  (0x0a487764e6bb64fc4a3f55424f34fd79d55f78485f07c8567f74e0331fc3eca4,
   0x34e79a7cdb19a72f64d2d590c7a72ef50cd826a8b54ef1827746ae1bb07c53a9),
  (0x10f9be27b48130e532632b2ef5df4af06d7996e6ecf8df629ee7822c9974c6fe,
   0x3e25d531e842b50801f184959947e6d4a050ea3b6f25084812720f178ab2623a),
  (0x1017cc437f6ca31c5cb8b1a14c4919e74c0e7a7173460cd71c205dac8ff238cb,
   0x221a8fd3dea3471ca27e9be23ef3e39af910054eb22e57efc7a79329b0d7cfab),
  (0x182650e8f7f3c594654e3cc1fefe95d23df5295001ad95198da5c8aac156511d,
   0x29197af428535c8bb47fa7368906d3bddbdc600a387f90de6a1457904fe227cc),
  (0x30eb56d93c62e58a54aec935bb45d7de568dbf3db50270c00e604790c292a15b,
   0x16ad3c60929ef022218866b3369cec8ff3d01a905dd8c6bb940f2e00ced714f4),
  (0x0a5507f7269465a6e6b3222bf89f1cbbbc36aeb7645931010c17e5c36446c41f,
   0x0cea69fc12489c7a0a8ac99c9e71ec480c7520806653ef255d8e920213b0c07c),
  (0x19cc6f41d5ea400fc5d9d3dd7ab895ebf638dd623264efb26bf7aa252e67bfe4,
   0x12c92e45f41a027eaa97d1f025168563066928e6f068ab0bb5f931acc93da424),
  (0x321d957427a1bf27fbcb8613de825e34008bed8d5fb4d8ccb5cd03f6546f2d8c,
   0x010907382d218149cdd86543720a655407186aa5d7dfa969f46eef715d5af67e),
  (0x1ee74f77ad27f62945a8b1c4454c5dfb99d756dad234fc143b0ad0142f1d6af2,
   0x399e531dd4d13840cc501caf24f4ed42198a81c905ac18d7f38f1264df925a0f),
  (0x31eda441e002ac2c7faed795ca8e83027d8febdae02d678eb529b39ab8c86bbf,
   0x077138caa39c2293684542a11e1fddd0d88c2feda381abd6619d1ef868556cbb)]

/-- Part 12 of `SINSEMILLA_S`. Models sinsemilla/primitives/sinsemilla_s.rs lines 10760-11655. -/
def part12 : List (Nat × Nat) := [
  (0x003271bd2b81e3ccf75228751f06363f0cfcacc441b0e1e28e3c040af2be9c63,
   0x0af4dae56e2804a42dc6e063027bde542ad67b132e777986c3adaedb26dc6180),
  (0x3c6c9061ba998e9791626f3dcb077bdb940f4012649a26a7507553c994d0dc2e,
   0x0fe00d2edc9892d2567e30afd3361f3fc7bd6c17b4a737482178ff4b07323f45),
  (0x21ab30c38b387741199548951bc7bb3e7d0f0335d240a72f923e5ef9fc71838b,
   0x1c5e324ece7e1fc266cbe4a2b207c3c37879b66bdb7dc6f928a552b84d1c2cb2),
  (0x17e37101e098d70864437dffeb541544e8adfcbe7b8fc8880bea8b377a6e5de3,
   0x08baafacc8b0f579caefd061c3651317cebcd07b5dda4fdc5e3c16eeea187549),
  (0x202c137cd1b67cb819d666efaecee57d3c34d6db627ab7430c4564d3dfdcc360,
   0x0ff009f748202e7786b11451ecca550cc5cb4568bc4a87830deec67fc4321abc),
  (0x2508a2a0337fd881ea28f364490d4a4b424d130189dfa29df299ebe2a9053c8b,
   0x00a8b4dfbad12ed39cef8ada9d7d314e11a1c1eda972d5f0d25cbf8b16a9bc33),
  (0x1cf98a3d7cadc772fe6b6d740d9eca7608cba79cd6be891a23be9beb9a9d1973,
   0x37211cada67a824fbbc3ed77a685e3387717856aa9b5f7e937b548a98ca61367),
  (0x0a19842bc1975949c6f20df95dfa4d3e502b81eb7035b6aaec8f2eff516390b6,
   0x0bfb19daeb566427b005aebf6e182d4c0370d5626abdb305760ba3178fbe610d),
  (0x2a4a42d04ff1a83e1f01e126ce1b85b2ef5542acca0d7327577e5c7960fc0750,
   0x11a22949d51dcca1f51d1898aad8d7bc409fa8a7c2926e6789fb594d05da15b6),
  (0x10f6dcfd305849b024d8342b6f1bbed64f2f05d03b6bc624a13ace546c54ddfd,
   0x247666c16beb09499b3d9a292c94f39121dd784073319fb145e4776cb11e2c8b),
  (0x0bd53c52fdd89e3fcaa7527714cc174f1e65355573deffb96942a75b0f8697d1,
   0x37e7f6b56da4f564e2e2ebf44c6080ad94ee6dd35be0b609efbd85ab07792a56),
  (0x35fc4d9f25e4ee0ca3a348929645d5060ff1052c6b0fe01aa785938cdaf0a82c,
   0x263915ef7bb7ac861de487e5338218c820316e2b440222101bd8138735d5eed0),
  (0x2baed2fbbfa07f926224b2b94190474531ec3a68bc558512727053949d68af25,
   0x3ac725dca3cc5a5b10f2cf936dce27abb3f45d31790930e01585ad6ec39d17e7),
  (0x0b43b8cfc755ef1366f359f1a2d0c9a0a8327e0c535a268d16d599fd795ee6d3,
   0x3cab00dcf0cb4e65f847286ea0aa95f5e22b9efa7f0e8978771ebb8c9993734f),
  (0x2a9b1dbb35716aff7277a9b2a4c66b96e458f9324ac98472940e5b9993815ed6,
   0x319668637d6b29ae697f9f0f730e36dd04e0d9572d5ebdec1d1e85617c5f74fa),
  (0x32ae228dd97ae433c2c090b4a237cb564e55755462203670f4ec666abe5dceba,
   0x048d94baa0e308001e419d839e6c94d791e7879fed577b7cad9669b3e76ea998),
  (0x33d9fbea8acc5ae93b2fe84dd429e90c7bb1599f1d1c91206c907b9f576a7619,
   0x3ce842b96fec08f20ab16a279c8bfeef645d16eedbae2cd2549aec5044ca17ec),
  (0x3fff5b9f33a9c8da8963b81fa95b9f77831b43fd4f801ad066feabeab49cbc29,
   0x1ebffb3eea47f184b6feb8a0d7838453028feede2d862dc1b846fdb33ecec0f6),
  (0x03e9659091357f5e50368ca94dc43f5c4d92bae1fab1c408dbd328a6187ed102,
   0x01285e400aa28746f020bfe62ccdf413a4889bf3bc569b536929102551643cbe),
  (0x024f79e6c5465014ba59b535c741b302513215883ffa93848a2435afb4a212b6,
   0x118093b383be9f5fa6a18626802b0d854ba00f9c99564ab8708d0744747db6bd),
  (0x31f3ccf9bc824e714bfb9edb2b9e40bfb199dda5ee5cd0524e81e880ac863341,
   0x003ff9a601db549a06221629392c738375e79a0b3e2d8063c77eac27414ca39a),
  (0x1009d4da10a2540b5d086ffbb871b05dcaaedcab3a2a1fdc19a3fe6e89199977,
   0x39830483a4757d5edf1e4b5f9eff40e2a1d162c0522055023e52b60be56ed8d2),
  (0x10ff7bf3f711ca78f2b29f4b9c136beb4949282d94e089688a0e979efd3efc28,
   0x2d7e82a56448019f2f2237ece69c885824a432dd3b0989e1f3aca739fe6f9a2b),
  (0x0d09972b30f1be1457d59fe0f291a84c5f56b22aa5b336230dd925b4b2b22f7c,
   0x3231c5435a253b5f0075cad7fa9bc762c0763cb4bdd1d03b3374d4c252f8d6b4),
  (0x1c7249cb9959520b6ebed47a734cd047bf65b40b5fa3aa57d27e395d361b5ec6,
   0x389f678170758a4dc6f176e2fc0b18a496ef2a6dad05ee3fdaa7b8e5921fef38),
  (0x1180028a0688b2fe4bf3df1d89d4101a719505781db115a0b719cae79e3eeee7,
   0x0e764f02842d9e516987464e44426e0f752e4ef19ed1d259ead46a5bc18184fa),
  (0x1c1d1e615c905b8a18e5adcc3d3044604e227ecdb7af81434fc8561be0e37afb,
   0x3176462e9090e088a1b72a7852c4ace364d28a73dea5979fe84b9fc9fa1a3202),
  (0x320dab610606cff0db2b606ace9c98fdeaaea64c9da4b973073d58c4427d406e,
   0x2046af020cc28cfdef766787acc5eec6ad8b2fa4c80d6dcff6f56017e567b738),
  (0x2e5684650c5edf5a5646bd2a721fcde4bf2571e62c01a757dfe0be8cea4593e2,
   0x05a7a0a3f91c3fe3bf564106777244b3a85964d38319d7e2c367119be7233de0),
  (0x03a8f536628da55522ff383efdf934daad7058d494844afba1571fb97ebdb1cf,
   0x08467ac7d6133c936607c289c75e39ce93d8765b4bb63abe89a6b5608b3583df),
  (0x340f717857c8c4f525c7ae4863c8df2dc0b79d5e0a313f0909bb0aa5c0f7596d,
   0x09d943ab4210723344bf08fba5bdcc5f413c51e369363dcc58d60999e9bd175c),
  (0x0c06a269203a835c70c3464c345f61a3a675e6bd12685aba7660e2b2190b69a3,
   0x25ccf45d51f9413f410a6beb11167954270c896c5e026b955ea981b82f7f4ab8),
  (0x1f006677bdfed3863dd5a3343f277d23252f9079e85e8c2b83b68e9a1a6ac28f,
   0x0bfdbc0576f2f69a5947c45d89d5371c1195b279cab63aa821c2597ca01e4b39),
  (0x19706df9fa507068e99e0920f6e3ac4800deb6ed5b56175d56aacca5f6d6aeae,
   0x31cb805ded057b357f83e0622c1f9c1405cec81de5b37f4768d10152dcd893fb),
  (0x39b763689c504537e988f1519c169eb4a65d85ad4b703a91f740893384f53c01,
   0x3c20f228e53f9a40c77aff9a1099b9ac9a097667344eb7ed8fcc28818f899d3c),
  (0x3b2eaf1c97a7e598310d1554993b9077c6aa35d0b5fc7e3e3e5f02b60499512f,
   0x025e43d695a4e968d0ebb8686884a28e2bf32b9110f2ce19c7ebcb649b4c42bf),
  (0x2806f8097feb4387ff9db1bf4bbd55c7fe9123c6366e6089e5213aed05e977a3,
   0x37d09ecffaad623137c996f882389c4e277ee79be9e86ab7f2cdf9d7d0fc3fa3),
  (0x377f7772587bc8e2c6ebcdf527ec2a4c3ca0bd3397db07436d97b12d3d3aa165,
   0x285ebf9409ad7630fdf1b209a4ba495254e7472cef1a9b212563f9303ffd2e65),
  (0x05c4e9fbbadad36d88b46edb02c49705d16d77409c8dc8d6300d9e13f84f0abb,
   0x0bef8f472c87797411dd807658b538d93928bb289b2202aef1515ce8bead7602),
  (0x0fcc10bf2527b056d348f694cf007eab5e1daab62b525e0191825076acdb4b23,
   0x3cf47fcf48ab5d1b3042b48e8bab078ac15d6f311e48704680f6acc99258cb51),
  (0x1fca3b8db325a3be8f7a923988e50d4304b081f923c7d9e86c139e1249ce58fd,
   0x22b9ca2a74d3accf7377f1462112ee7e375d358db102d895692ff2925bc7efe1),
  (0x2c7bae767c6005c668e765cfe8353e99e067e06d8977054bda8dd35894917794,
   0x328e84b773abf7fa7615e9eb5e16ccc49c99a7e18746abebbf715d064e5ee34f),
  (0x02886502ad643ca26fd2be38efd3c2d4c9c2448cf7c2687afe57fcce7fa3b8ee,
   0x2bfbf8ee7da69c9295b24a5e6c5784b4460bea82dcb074014bc19841b03f4d5c),
  (0x33d1e61b23b045c8146a5061cc03a8bd76dda79e3bac418dd39fac30c415232c,
   0x11c4166d43ca34b85c1443d84dfc51113403d7503625fd760a861d38a0c16167),
  (0x2bbbc6eabb03cde0e934dd166639b95aba058d5bfec4396459d0490173f3dc32,
   0x192224ec0f7f7bb9256b3bba79ee21d0ee684cb6e0a93cf3ee85cf1845233d07),
  (0x1945e2c33e0575dddc1977275d06feee16253e1514a17a125e0d42242670e7ae,
   0x39e28dd6964e57c230f3976d4f5bfab9fb545fc0aeb3d878d13a150f72997634),
  (0x3408a7106fc82ce2661d38786be13883178adcd2917217f0633894e31def1331,
   0x074187935d707bcf85896891dd66820f96de42e109ee70d6342c2e44c71bed3f),
  (0x15f05b8da216b34ddd5d234c090b39035d68913cd9e6d01ec10b7e08f2dc891d,
   0x2322da041fbd912212616f4bf1cae2a5aeb0181c1252a47d7962faa0cf7af257),
  (0x2b4a47118c5607da68c6f5cb806b3ea4e38f1107a34e2dfb6a1fd4d74910b554,
   0x2be0c52c6093c62c63085aa74c7a1afd5c612654288f5199c783e3cb01aa1026),
  (0x05f05b4a15146b31b8cc5e6be457cafa7d454af5572d847acfd8887fb984673a,
   0x315c4707e2075aa1e7f1ff6b4f7fecbe7e644e6e6208ad839b83b1073366b9df),
  (0x37d0f7473f388e55b139c1913f5d2668302bb80840e58700937fa43975f49b60,
   0x33ff03686ba7d5c7fcd62e4ad4f9c873248e5ca66754a3fe85c8de85e1bb51af),
  (0x0da7ce87e12d4f1cfc3af91de825cef978c4d68d953566135e5badbcd5fb0443,
   0x0d6fbbc5de5586900b0933a22f8189864a7faf0852b5609c7ef05e886074d377),
  (0x2297a2d2c5b4e32303d539c6576f66081104aaeb126c9c14aa9103bfb5ece132,
   0x0c1dc916f323e7ba429bea177b3f4b88b05a10e100cd63b060d6c848219ce7be),
  (0x0b636e98ac646f4d716da38845f12b567eb787f3ce5fd6b17e91af5541b08bf4,
   0x1fac62f432cdf236056cfba52b557f09e60a52ebe24b27bf4ab712d1a43e13db),
  (0x3d4c2ff5d00a38761b77601c50e86a37b320f94da9c063af2dfa15b7ebbde631,
   0x2765c806aec771a70c4de807c535b183aea54b5949923c71272a341743de26bc),
  (0x169121850e3ddc2356c2e32091d08278d5fc34d566ec9ee855ec8f257b63e13a,
   0x2cbd3698162f9ae9d6dfd4fcd029984b8a79eb1bc4928b71a1484983bee5638d),
  (0x202aa34ae870a44e732f44e55380a99732a76039297e84097a1b05bce3c47320,
   0x211449370a1cf825e09af42d581b50a736ff575cae12a1e348686f6e4f3174e7),
  (0x349d78c6a7188921ce43b79c9ad675f97bf8c21d104998b1db422a77b1831102,
   0x29457a3e37c3b020da34d0a72cd2aa3fd134f6e036b8c18a3070ba0f699f080f),
  (0x220f43a34cc1d1a012af8401416cdf0bb91fc4b10e6f767c6fa16666d21b774e,
   0x36f13b73393459b1f36fe4723313570ce5808ab1a53810e2ab2b060cb26ef892),
  (0x013c52dcadff81e09f41d8d8d7fdb017242c04d3d97dc2534e49ebb2947db488,
   0x069a8db09a55b0f451d0948cc749f20b63b0abdee4349e090a297aca54caebd9),
  (0x052a3255a16523a7b1af24a153c82095969eb42982fe4929406fb28a71f78032,
   0x144006dacd6fd539f950fe2dc059db22b088ed0cbf43f3a898f182b95ac3dcd2),
  (0x3891f70a133ba4573a733388a50488dc226acb4a3e9829b1da59fedfac9d3f1e,
   0x0ed1b27cc7efd5acaedc63771e3f8787bff12fe21b00e73725c46ed84bf2d71f),
  (0x23b38f5bb23d8b5eca42f4c44243c1d5a6490816167743c9c0d0516d40d3cc81,
   0x1225df057f8456b26b5af006e433ce3c8cda3463fef102c3ed2aa32cdcc3fa23),
  (0x2e91cf8d032873cddd23f6579d03093264b673acc38f66f082910d7356a0e04c,
   0x3b5a844096401532b651e0fb26b816567a2980d25e0abeb06c94855064c0d6b3)]

/-- Part 13 of `SINSEMILLA_S`. Models sinsemilla/primitives/sinsemilla_s.rs lines 11656-12551. -/
def part13 : List (Nat × Nat) := [
  (0x0920b057f2075bcdc9e700a747611c17124b4809a75e8835badb86279571bbfb,
   0x11269fbe894e0bedfa8eeed31e15ec9381dbb86129e9b438edf428d27f576e69),
  (0x22d94c09d95400dd117c2cb5bf1e601b83c4259d975851fcb1f4fe1d7c447f1f,
   0x1144ded20553ac9c2b63fc4908e048d6313b2636f5040619d6837d9fb5d24924),
  (0x3150c6bfe2c6f49d8f15d008d9e9d4c3d079369bb24c53d9387cb408a2425394,
   0x1ba302a9468ef35f41ce532d3e8a12e27867a4bd2454fc8c0404728fc1f7729d),
  (0x1448b16c52537aeba8bac05876aa2be050330f9620ca8bcc3db309bfc9b34ec5,
   0x36f62912c02070b83ddd9c6e1e82af5be88276a0e24347b5c139ae9000d82a6f),
  (0x02f835e295b6562e87d26c5d6fc8233241d789f550b6a9e614022b05d861fd8f,
   0x287460061cc8886f884a8d7f678f75dde61972c105e4cd9dbeb93c0652f74ad8),
  (0x07bae7f246e11e0e46ec4c530949f44c6747f1efabb5399869f175cac3b958f2,
   0x0efc9a8cf8253990a859e7cd2ceac8a7ea7a36bd949728f41021d25b0c19dc41),
  (0x22835512a16bcd1f9938d35cc9eab2d4c0e13bb8134abcc65dea1fb90da5a77b,
   0x0e74f8e890c4692f07218f0031b9ac7e34912b520ca171f99be9eaf31b0fad7e),
  (0x128caa536e0301ab8539192e4fcd6ea113cf2331e171707e6b4a0ce426ac5fb9,
   0x11c8bcf8bdca1c4d48670871a8fd61a2b4b2353a6472323d6e6b8cb343a7fcba),
  (0x301a41e00512a1dcf8f71e1d01abdafaa8cd2c9f9f6f9eda8f8fbb6f6f0c7693,
   0x303f3b4b74c459b8bf2ae148ec6b7343f2a6d2795c0364f4cb706c7b9d80868f),
  (0x1bf981ee4546e1d652d426c8e498b8aa5a11f487f2596bcb4c67a5c8e0078e3b,
   0x1457bcd89f13ef724c574295a50be5aa4cd857e55ff9a68eb25b9edaf3c40ace),
  (0x107761df2dd66275f643d9f0fcdbda79a9f4ad41da85fd4d6e4981969af95023,
   0x2056dd5dddfbd3914c70289c043ce9ede61c2fa41da2cb0efa32bd06b1afc76e),
  (0x1884c4849a2339d1832afc2ac06b48c0bbcbdea14f28c13de6f7b311a5eb8af4,
   0x0c4aa17a3d5987b08cffb5bd23cd1e02a661d6545ad78770ae85ea27cf05147e),
  (0x3ef8d7d1dc6f9f9df87cc78cef4a6b96631f355dd06dccc609032b7120d2c6d6,
   0x0297f7b8d03fdedcac61ddbd67db3e8d2dc374077cca9ffc43cead4948ddc9d2),
  (0x3d516690501f18a29887161626492d228051789c48c88225361c0eb5afbaa00d,
   0x1a00258379af10c89124952e301576f34a8c64d0c4eb05223a631bfb843dd126),
  (0x3bac6dcd6ca708695890cf65cdee4f41c4c5f777afcb3d7cd1b3d0601eee6e43,
   0x1b0a6ebadac7b09714d2e2769317f41605863a0c6afe2d3dddf920c59c7d0fc6),
  (0x38d0a5936ed69ee06d98908db903532063ab087aae54f31b13964ab646aaaa39,
   0x35351cd4d4f91ba2ddc14261c7245d07ce8b22423aa896fe63addf45aee3572a),
  (0x01c3182187e9c394b4dfa467546f0bbb38e37f585670d457b5caa06fa744e9dd,
   0x106cdfe8b63a2baa0b2dcd8417add715c35a47e795308784735c1df31c86a46f),
  (0x288dca028dc036dcd41e5c95365cf30aaca9b56215b532b21a6e026d0c070abb,
   0x291ff461d024af8f3ec6e3b5de20815cb2d7be0a1d12423d662c4ded852398ed),
  (0x1a767954e044678de6329240dc54eb20a1da22b08593d72ab09ffa66d16c27ec,
   0x14f0fcd50316e459d7a2306f08c8bcc4d3488598edddf7b2e6facd0985a50427),
  (0x3a30a4172ad604662801597fde589a3421aa08fc88eb4def8f32c8f35b646f4e,
   0x3d3a57fbc972c1e0da5a4c0283a42f1dc967557c731b73567d069540e01119ee),
  (0x30ffdefdca48bd81f0009637f19f5b9d05475fdc7ec71268d3c1f6ccc3e02a53,
   0x2fd20d09cb6bffe27902c79504be18dc61325ed020eb03f691ae94098215c29a),
  (0x206cc1739153a5a31861c0540121d013db7f1cc704b6b1501a31a60bd54273dc,
   0x31f0de88e2da7e717bd2080e2134cd15437649cc7524f7dfe0e9cb825775fbd5),
  (0x369984a728c9f5dbb00ba3b70b2ce3557aefd664bcbf065bfc728173780bd7a5,
   0x0241cf89cdbbb0f25aa30609bda0b60a3295dcc5fe7c58a3ce091005839f4217),
  (0x2990fd5070f8dc2be7cff705a799754f72167d5526f98da31b0019319eba29b1,
   0x01eeb0e05fe31d97f755cb9623f0a42ebbf42638ef8555441eedc7c449c63e99),
  (0x06649f660725b3b98e8641901d497ee8652d23f0cc13026de37e1f9e40b154a3,
   0x3c112d8a1c60b07c8e3f6121894fa536bb63cec33dc1383ff17edcbc83c056f4),
  (0x38aa35a03d7c378a97404aafc9c4a82ea7a9ca394c1d37be1a3e7d7956bbfe12,
   0x1989cd8999707a9568b971fec7f38566dc679917adbc69d0b6317d5e8de0bb5d),
  (0x1af47a2f3b0fa03204365be3f84ac0882058da7536faa776b2205013ba9296bb,
   0x322fcdad4c077b90a021f70677fe3e5ab2350d75403df0f12abf47963d43d58f),
  (0x18cc6bd22c90ec214614a78bbebe0932aa6b45d703a5e6f606a9ae6ccbe5d5d4,
   0x115bc8411338488f5a191faf19e0da2c95a7bc7f31b34247967c718dfed8a0b8),
  (0x1548072e3b8c9cbf0825fb37e0ea5a480b4377f8251db7af1d51ca19915ea485,
   0x3d57aaaadb935f7b31954ba2167ab49cae66f29cec75ea3a48eb6bb8ab544b29),
  (0x240081aaffbcd341a6a1586107370e45b68352dc4bf080f60c463390d4144397,
   0x08a9eaf7b5a539fc71e3e8e22febec64c3dd0e850c046877bbefdfca46b3a803),
  (0x0afff83d40bf17417efca29526126f7bc313a37c4320dc755e06c2b1b31b93b4,
   0x15416661ee807c7071d647911e74f12b5a50fd94f40c8457c7cb8f4cfdc81d4b),
  (0x356ca3df9cc04f80bbc9320f0df4143af33c77fb6c07ea842802c3f289e95d61,
   0x1dae8d6bf9271f877d3bdf29ce4edfb57f475e597199616e4f45fa2b9fd81daa),
  (0x17ef3597df23de2e963be7981010c5ead3939d88121144b0473f87de7e94192f,
   0x0ac926dd9cea3447d3d516841d5ee0cf12d2c681d82eed9c1e958dac55e3db76),
  (0x0bc7e844145e084b5b801548f65ca7776db7b0e4db1397af685889c415058b08,
   0x19ede4452202a6557a90a95c27ac21db151f22e129fd3354e5384d8c3f79208a),
  (0x2a9d8309fabf976ff39c96d35d9bbf6d0bfeaa0f301d6f33ded857fcee323789,
   0x1bfd16dacc0d2d3fe704f08a2ec9996c6dcad2ccef93aa93528c0f4553ee3161),
  (0x1a9063bbe15464aed08d57e0209d0571a2018659069776d0188b8471e40c3640,
   0x388e691eea9e23f43c1573d971875ef2dd5078d087aa87c5568d9049e597c096),
  (0x0af07979abd8c613d75d0b95a9f7f97b29cea2902ec840f540ab3fc193701560,
   0x1959acfff5a34bf94c2c78cee5917f5ec6020943036b091b5c15cad205539ced),
  (0x1a0f29788594d43f12be81153b9baee95a9c4a97786d19a1fa8d876d7cc00fb8,
   0x132203f357888fafec5d2259c86de1f5e734c0d30dd89ea3ed9714bcd4e88df7),
  (0x0041e2f5f2d68640f46d112ea5664f4213398c0ddf8ccf2293b53b6904848f93,
   0x31cc699441a9c0ad65e3218222f42268ee5015ea4b49adacb6050c79bc107760),
  (0x19860f4a6c3eb16d475aaf9316b9884e5228ca94d8f156ab94aeab7ceb6281ab,
   0x1af1a0e4f57d5be3d02432253f4a670305408297454e307febdce98fed8c6d40),
  (0x35ff5141816d634fbe3258d66770c14bb44aed3deab78850fa36a92eb85be634,
   0x2db1ef2c35ad69d3bd8df90494399c72f0d6669bf68aef2e500c0c1bceaabd2c),
  (0x073082f6d583d377f43995af87abfbbde5ca70bea28e8cd2c0b48b5d58ffc10c,
   0x2230637f0cc289f0c6fe83273096a3194b6a3c80f34bc350106230a0d5050d13),
  (0x25fe42611ed7737c3f8515206a2a970682f929c5b2a18aad25e89191c18bb009,
   0x26e736b7a39fc44094dbe5613bad7a8c73cc77a90b105fb48337c552d63e02f6),
  (0x06e5c844eb1324bcfa3c4dcacbf8ff139db9c02011b88c650946b650b1c08743,
   0x1a82f5f2799f573a6b333515afc8813b37c58b38e0fc1baf3c8f57f9a8a370a1),
  (0x078f7b8ece6e22e4408ff799d86afd7d8e07282b8912351dbea15e63420a279b,
   0x1407a09870a511488035febd691ab18e333d9c44d4e70bec88bcd999cef1ecdf),
  (0x1d359759c143d6ff0955d42780d34702eec794067a27a899454c97de2584aa5f,
   0x05dd3decb765a777db02148ac73ca8e1071071d6689ba943a816af3015f6605c),
  (0x2a997c7ba771a172cf8cc81e16226cf50dc90a9f1c88325ddb8038ebd76afb2f,
   0x12ea87635c8a9c3b5be9c1921d28e8418a7025a0bd8fe9a9e8c2d9bd2155e22f),
  (0x2a1e4623a4aecc181325900bc3235b30467786a0b2a8994c4e5c229884b8933c,
   0x13a4a1756930a346cb43553c55836e1da74e0f1c1e2f0b5d566c512b6e4bd49b),
  (0x0b03ca6a1e3817f6c0c2ad95b9fd35faed917232785d86d0503c48f089212210,
   0x260845d259cbfed77b2b65b271d7d17f33258fe30797c7124c854c2ef43bbeb6),
  (0x2cf20f0a34c21025cbc1d869aa7d14ebfaa077c5094fad4d5143966516ca1642,
   0x22cccf10e21e1dafc957086f091593412e1d370d297f0a41ad36eea99921cdc6),
  (0x27c8ffd632df7764d17d196f3f6a9e268b24db0bdfd8617dfb44e614c314ad4c,
   0x31a30d03e7a9779d98a71f229c63b251d7a2791f6a1b568ba5ca43b4390c42dc),
  (0x31d28dfeadb7adcbfe86f4235227eeaadd938b2201390ac8f4b44ce98722550d,
   0x2a2097738054a39fae287ce5935bf41cc10fd1b12bb886305adb7f3374bc7bdc),
  (0x1b817a0e2f334e492c5ff9c4e371aee9ad57cda92e1775bd3be7413e3d67146b,
   0x0e93ce945828a23c4d381b521b1acfd12a49ce195f438fcba15d8dfbcd6d2737),
  (0x2b1aa9ae9756b3fb666a9231c7660b6bdd2f92cf218473d41f51ce5dd476cea2,
   0x1780a81a6a2ae54c4e8aa7b84aa41021bf85bbcec460d9aa46a99cce8c15cca3),
  (0x1c09ded374a691adaf7fd1283ec44bdc259fae609e4efd82e17a6b509568c08a,
   0x26a62ba893500fca8586f426db211456fe2eeecc1187c58270dfb9a33551a4d5),
  (0x22ff987ba1c6cd80f70e9a725b801b250bab696b14feb07f5ec3cd2356246658,
   0x231733ea2b06a86deac839cea74dddc4ce4dd83db956929b78080fb58b7cee41),
  (0x0008c8a27bfc9cdb8d7669761a7070fac2180c0ab71e5168aec86746685dfe1f,
   0x3e6cbd12b49c1bdb4ed85210fab0f9807b4c0ea1c1ad696faa4f3a369871ca77),
  (0x10ee44307ce0cbf360a3c179c72a2b8928641feb0791af268f6a0cea47e17bc8,
   0x0e9a4a4a36ad1881482d919487cb1e2fe302d7db78d5576d66aadb97f4c0a463),
  (0x06cd6193ac7ce277f9dbc0ba062c1970dff447e0e1f760804c345c29f8986470,
   0x0c7350b8829eb73ba0115d0a2f3737478280faa148a1e1046104a761347d3597),
  (0x22b17e5975fc4d7fd91c8c1ff2fcd4149dcda639ea9dd0307a9841a01d1803f0,
   0x201240e4943d2c2c1a203ee403cbbc49973b49e94e35150ecaeaf4615474dd21),
  (0x266326f87005286e0cd47ce726feea9d1896214f0087285475f133d914565351,
   0x0eb50f0e3127577d5924d283767f9d5cc7d8f9406e0a7c1f173738264271f35f),
  (0x1a865d1d04a2df73313a9885a17099ce477b6956a99f77cb68e20f5ebd39c14c,
   0x10fac29deb03270da41849f5864e663552dd72d42781e37606230fc4c15265bb),
  (0x019507a1b05aac7ef0175c2bec60fe7fca09c64e7421cae2a57d38954a64fb15,
   0x1b09b5e01b7af882ef6abddb8c68635f1aa060907bb78a076075dd2763ab77ac),
  (0x14189c7850dad38356a719a2e1656dc75a4269be4726d8bd784972ec1ae037c3,
   0x2881c78cfeab68d2f053fd131a2008c1556c78b47751dbf6815bcd2bca53eb95)]

/-- Part 14 of `SINSEMILLA_S`. Models sinsemilla/primitives/sinsemilla_s.rs lines 12552-13447. -/
def part14 : List (Nat × Nat) := [
  (0x0e6cd0f8d1eac0f0d230d8eac29a51fcd3066f26bd6b4a10f30619134ae07a9e,
   0x0028bb6a862243f5dbf79c2fdb4dbd952a2bc25080aa697f9fa427beacec9bb8),
  (0x130b5b8519be08fdeb7f99d031cde93d379dac9d9ebf876af0138449cc961899,
   0x1196b0273cf11fbc75e73faeef12820815bda565cfd099f1a4ed7e43422cbaeb),
  (0x3ab88c62791fcabc0ec461790832791f5e9621912f9867c0c311f99e5530bae5,
   0x02c423ea26f4a3a1e362292baf62b032300d881b2157d573e30cdbb2d1a346f3),
  (0x2c800943ac16971f134bbb0dfa04d1301716dbf8c880c5a07244fb82f14a5b15,
   0x09a1c6d2ba6b3d2c3330aaf3b642cbd0e1e61bbd01633f49978ad2ca089a5c31),
  (0x24408b651f74a85b222dc71b557c90433bf6b12ecf48395c28a54ff3bc33d5be,
   0x207d319811df6bc7a3869229659f248435e4e8f766c015d19066089504af52c0),
  (0x2b586ce7ac3a9166b46b37e573fd989cc0a40440623945f915d9722bd97cc054,
   0x0d86a9fcda5305058d85c0446dd57a4d7275cd16b7e6a7a5b9d62d9d3f31dbef),
  (0x3d4a6fd819ba27f04fd639de9f61971e617b0dd8180a164b6cc3c1bc2016e727,
   0x10989857f8af586f62bb59218c4c4aa27b16485e63bb769f3413e80eaa578bd4),
  (0x15f9f0caf8508e6178e6f0f30b76b896e888af7eb7245aa14d33b7d22e3ae53d,
   0x372aa61be9203f30b351ff5843cbcac6eb3fa9dfd0c39b89bece4f0de233cb6a),
  (0x10fdb6b7243484429ad1c8fa759a18913751b852e7037cb674f74a0ca5d5f226,
   0x0a26804bd57ec01006aaa43601b997e34f9c2246cedec392fcd7aa2c6716e475),
  (0x0ff167a982ba334c2de473968ef10b89d1dcdc873d99a0c6539ff781f1644836,
   0x2d28735e9afbed0a3547e3a1e0dd755dc1e055fa97df88cbb50dab9151888e47),
  (0x29b917aa34eb2baccb66bb7a1ef8523ef529cbd90600711ea2788a09c089d696,
   0x3d3043c27ddc74172c0b869116523fdebc46b5a4cea48664ed7fa63985a4bf96),
  (0x206b0968ab5d844aa4fa2bc56f5a3772361e60a39a6472b53c6ee7126545c6fc,
   0x25ff57c68a6caa432fa9d1da381f945af91523ebeca6b1dc7cc36e87ba43ad08),
  (0x1c40783212e1737967eed98289e3c3e4506184087ab7daae772642a3c1c22be0,
   0x00575affa2e524a23e9c4b328d2433ffe5384afdeab94a52aa43becbfcb9ce01),
  (0x0be3ab41eeec484d835e6759c23de766445960949fc086c4ea0ece1754e1854f,
   0x389d847ee5a1b1e92b598ff2accf39ce19093863efb7d54948f9a60962016be1),
  (0x0c6bbc4d49573c281f47fea4cfcb28903560e5b4a31328a8936ac037696b6537,
   0x1094a38ba67127180ff937f04793a31980e1d8ee95b1e5382ac67e2ffba68746),
  (0x2c64885e84cbe485a02da353aadf1885eb40cbe1652cef898ec7df2cb2b8fae3,
   0x0ca8260cf185b333df711b471772d5f25d7e8f0857f55c3eccf906a7d926e277),
  (0x10e07bda6733fc287ba9c3668cca0e58cbcee2bfbc0a86daefba501dd9992307,
   0x26c755bcdfdbce7003d25e00aa842a6ff16a67d62aa275b90a72e66fdf7debc3),
  (0x1d387fb65f7f4a52e23580ffb9f5ac997f944c4f10a49717185376649aef2dff,
   0x3019b3ab92500e2551712acad3e3cb0c6ae3f226ba4bd26bb59f6906b41fc19e),
  (0x0e5c39365a6149663b16175bdf99eacb3a1f5c6344b8b4b27405db8c8d1397ec,
   0x3a3771c5e20ae479e6487df6e45f90f60cb5c8142e774dc93c2a824f2a3b26ee),
  (0x359afe63b4f298238d400c2ddfbb597dab28d0994637c6c50f5140a8962908a9,
   0x0677006e034e098f08449c43ce86523a136d5fd65404503c1fc4f014db4275cc),
  (0x2838035cac989917c453e6192e6a86d564fc3b5453baa1af7cb54bb7ecfc0a93,
   0x31aaa1adca937f4c47353b6f4a1f7e8a129041827ebc73df0f6e5839dff88640),
  (0x13b0c171d97a4fc82f3879ae104b8a553bc4bb39ede70bc39f4337c36d2b534d,
   0x118c46bf17f3a19f63f47e7de49edfd883977f2865beb7530d46d1fa370c5421),
  (0x039ebf84e9424d6fc651741d4d5c668aad2a98d9656d0cf3b4eba0ce896948bf,
   0x15e998b1e98e6e1bf763852b4eed2af1edc7bc68679d680ee095c878476c81a2),
  (0x1b0385344ec0b55a3772d744a179b8ed9344357f0a1fda1385669a182b288d21,
   0x2a3a6e072174039553157c4750c697344ef55d88b13c01b646618dac39b60421),
  (0x2f040f71e7e4d55456b40a0a664d8fb42837ecacc4036f3d1e17b77543993b91,
   0x1247eccd7849645b42fac5f8299fbcfe5c6aa70475889496cbf051deb98fc269),
  (0x05b15c3d6a3fa4ff26b56868509f8ba2b6928158741067a5163e3aad4d5f7140,
   0x259a0f621c0439a12a158448678739345b3bf2692d6836077cab64a8a8d01dc7),
  (0x115f3e25b370bb6045575d7beff9afc9ff6e56d732b9a43d5bdaeacfbdfb6df5,
   0x3ea17ec5148c679dc8c1e2277dc595ff2f3093f76e39fdb3fa75dfbddac88daa),
  (0x0303ffaa2430a0b7475ed1d0ab29f62851ee63621f7887c024475f8c99936ad1,
   0x0130c23640f87f8949b23458622cc62722cca0bf504142711dd2a952d5a5189d),
  (0x194237518e3a2f2323e7ce2d92dcd66a8bb129188b7a7858aaf19c5acad71c28,
   0x1d2bb94db61ec34ca6f35519396e3a07eb2b683ef2b06773a32ceb664b3ed4d9),
  (0x168547689da6e3ad0bbca486495e59d5bddfdaaba5f25e3b4d21de83ed0b0ed9,
   0x0a2113b0758e02e5336ae9d05d217097bf4fef216f4a598887046afbe0596e25),
  (0x0601c91a21068b41281407aaf7bfa9ed56ab849f5d0205691b2a4f1990f64ec2,
   0x1039dc0acb9ea1542d6e5a281e9364d807def385c064d556cb15a0dd808ebc3d),
  (0x08742829cd8ca7080c7aa4fcf303779bc113bd2ce53054b2ed0ae9052f8fec82,
   0x28a6ee293adcb613cd495299356c63301896a6ab5b9e67b368822f877899c3f0),
  (0x3a1794dba7a93fc68e1f4a9b8d4bd3207c022a85aaa948e44b5e4d5b35835cb1,
   0x0f9a11b5efe501acfdfd2d827b63647c7b10d3c9524a5acbdd5572e9e0fe59d3),
  (0x2f80ba7843d606769afcb0b8a037044d231af130d91491618a46db66f88adfda,
   0x2c410add3b9a25cd3152b63fbf6b2e27e9b8015203ff232a7b8b4486b3b0f9ac),
  (0x0a1829ce9f91a1d50461f1a2876360a367e3f66aed16d76a346cdbf0be7695e5,
   0x2c5f2e6defce5696f512092f5365a2ac2c4ea7a2bc5dfd52f17b9a2b6fc88392),
  (0x133bce230971df91f5e614a027852538b139cee1fbb62242a5c1e1f8460d9bd0,
   0x312fad99bbe7c204749c44ef1e7d1d110ebf79f0cb4765ce189ccd9700f7da52),
  (0x2ce537e10a7c529a3a48172609ca40310bc2ab1e2504cf52e7528bbc917a6be2,
   0x377a985c3a1b860cf84204da88869faf9fd8db658592ed6464f79aeff4c42d79),
  (0x2a6996bb3ac596731784f663e29a30ca10fadab320e6ff3f5d3ebfc625d205fa,
   0x2c29eed67fbd9a89dc88a94b7528facb90b59221a40179bf3fb6a9c2e6d60488),
  (0x1e4646027b2bc1cac0c7ea19e955ddd7388c7bcf228c73fefea62c8274a6af4c,
   0x3cfc3c48e73a04d10fa5db8e79e94367701a20ec477eaffcca09e0e1e39c3c01),
  (0x3aca479ff6b49d8ae76c8dea7db58e1fce23189815def8c7d84cccf5eb334179,
   0x067c293d8b6ec1ae32d0e613423ef64f2e179d8f8d2f2fa617f1246df1237a60),
  (0x3656099bd15eedb5ff5abf2cd1aad63a71367ba67f60b1888ecd0c0a17a78a19,
   0x2e449f1db52359ca6e713f497b86cba19aec45eb3df35ab5c0df1063d1e29ebc),
  (0x34ef089e8af475dbd95f392c8d71ee6d10fb4ac0433ebe1aa56e440eafba0e69,
   0x2a596136fc96199ef858c0459eb26defd3907c2b464546939cde89684fafee29),
  (0x11985ddcb45fed85939fac11dc0b394b46c563301224b24fd34183b868a0094b,
   0x2854b24001fe29474d8b05af33be0a68818ce278047931a8450352528c23bdac),
  (0x0539fe92593bcb44e07e8d17ff5bd96d102d32ee7267baa421ea923b9dba2757,
   0x2f151e008953fe2ca4c1cc4e5efb20c5776a98aec6c1fc4589a6e78ca7982cda),
  (0x0d38a13fe3f374f319245c49fe3fbb4c81febc2a8877ca601023504183b91d97,
   0x09608380e85f342a6ed26c3fd32909e3cd95d78b73575f87d643173144a145de),
  (0x3fa133ab04b7a1e9ca99c923f45e49ab9acf4a57b166d49542918cdbbe2fc05e,
   0x0cffb957d167719848d5eaede32492cd55ec878d03211172d731a982524d4da0),
  (0x3fb4d9e90d91ecb0853a6c3f3ecdf11dd99b85cd8bcb927ef528ad8ac429a4c2,
   0x3597389b0dc1133452eeb5a01934a31cbc7346bd4063fc5d91375cbd7088a770),
  (0x0fc8c0b7b394224221f961cca49ef597489661c3cebe0978db04e2bdc6a33802,
   0x3e4d040bc1bfdcf7fcda82d534b488d372b152a1bb7c23478f859b56948abed6),
  (0x343decbb2e709ef97c10a2c01bac9ff6a84be92fda7a656424a9d7d9f5f8fb4c,
   0x1a0c71662352d21d18f202ad28562bcc6d30faa6432e584bf538642ed7fde654),
  (0x08952f7aefaae8e689fe087b275065460d8262eaf48c28a208e8901114d33f6a,
   0x3aa213ad62aba032b795d9135441e491c7bea103e8a5d522ca63280f955584ad),
  (0x227b14a31a992a2ec4cc1e3f0b9c48b7ef1bcb7eaf7c9641154de3e2a46dafa1,
   0x2cde373d3d92f96a2fc880361925c86a28f4a7fe9e2c3b73e7e2e29071fb4a61),
  (0x38039a474646486b35146c263e067076a31dba9930393d706c191842a7d6f4c8,
   0x2d579b70dfa465075c22b91e7495dfecfcf6b6aaf5b2d25227afd249598296c5),
  (0x386b3799e10976131388bf8beacf630e1a8572f4fe6f532550afb111437664df,
   0x0f7c38b0e835e79317dc6b11551f52f2aac6af7ec5f3428d1d702f5b9143e12a),
  (0x0c02f9295248ff039b77ed75c46ef6abb4a0cc5241e10bafc6e1bd759bd43e46,
   0x0c64882844625887ec229f0f1eb149a60996b65cb2e17918c445502409566825),
  (0x1e0d3b1ef4ea6379021a0ae6846c2364bd471f0469d35b08c4128bbd2797ba18,
   0x150b00bba5ac9396f844881510e3d7de1bfbe611fe7274e3d0bd8eb21cab9f78),
  (0x29d536bf1530146c61f77831314b7912f2e47feb5a2b1656752e2b2b9169c0de,
   0x2512c57e4c5a951e746f014238215206197da4e076dbb42ac890bb549aff0c72),
  (0x1b9f33fa945c8c678ae1d4144cc14cdf8c98b474bd461267e7e66a45c1aa686c,
   0x334bd2ec3b06223874c80f5169307044ccc8ed29cecc1b1b98027495ad6d6b21),
  (0x0e28df80537bd86b92902fcd5d973f9977a79d9dee72233ae2e3e34ae48a4542,
   0x28f48a76e85b984cc35b17df11d3bb77addd7e70cbc28f19b257f5b7a1985b9a),
  (0x1a2843627c857a951e5433c8d6c1c1bac8a7697d1031d3bac1d264b97aa57f83,
   0x36a57369ebe32da139ca84fa65ecc4cf153c681033d134365c007005f638803b),
  (0x1ab40ee5990b6b99ff6bcf88212e3d2b959d75b1c3da4470cb3bfab71ed688d1,
   0x0a8a53ab72a313bafe5597c142a4a22552fae1cf1c000d2118fccc71d6e58e43),
  (0x1c1244759a7defc87d70ac66689357e861c7546aec52434af4ce3a3754168e4b,
   0x110af91f27743efee5a274365afdc9e0ef71e88623595d4f3b5f2cb6a96edb5a),
  (0x27f2b67f1fece78a0bc1f4d9d4d5bd669fbb9b3d937b3dc36895e22ae677de95,
   0x315e645b5d4dcf13f7e38c41e428466cac8e5753a8f503627234941150bcefc4),
  (0x2fc44636cbb6d6dd038bcb016b45f433909a795bc421efe85494bb94e8086993,
   0x1dc884e07af9e250dd80a12fe84df36f0aaecb06be080506a37f6fe00cbdbb87),
  (0x214f7c8eed8bb0ef7a8b0e4c65b1cd506fed5c7513eb443cdaa41d05a56d0e0b,
   0x2c2292b44c2b0de856b20c8ed9f126d92353dd64ed341337fe49d9d51881ea16)]

/-- Part 15 of `SINSEMILLA_S`. Models sinsemilla/primitives/sinsemilla_s.rs lines 13448-14343. -/
def part15 : List (Nat × Nat) := [
  (0x1aa71c220de7c5d48a847bec6994329f335cbb5b4ec02deca74d964e9b7c04bb,
   0x218361af34fab7408ab6b763bd79cc269ba79e1b259f8ae6c3b882a6d6f9f593),
  (0x15716caeb4f2105b16cedcc1c05512da560bb24bf4dc8b3897b65e795bd53661,
   0x0abfeec226bf1c5943c4b3e29f78544b4597f16e4e482ec73f1ab4a4ab917f25),
  (0x2542f10c5975b4f6d44324654f9bbb6ecf15e49b9d08eba39beba73941b691d7,
   0x2af0280ca2a1a946360768e2df2acb509e64ef82f138821d410dc2a6f3c7221c),
  (0x0591ae2296a9a185d0968644fefce14aa04725f56850691840aa4da4252532cc,
   0x0f05cf9a21cedda10aaca08dc1b625a215481b858a6294f1c59dea562de9c223),
  (0x07dc2bacdd7c6ea07ce51e25ad24307263307f6f52ce3ad5d14bb7d1507672cc,
   0x2d95737b55d55dd1b796fb55e09c978546f5819e44b7ae095836c3d57c40ffae),
  (0x2f1a170618f18afb578720aa8983bfa240d9e41e36906b4486dda9bf011582af,
   0x0a8f129563b55cb74a3818ba32b7bcd4ef85967dbe1c9f7909f8930975e4a8c6),
  (0x2e6f30e386d6a0c034b6e8a96a3d1adc67a1f9d2a1cb289264e5850fa84e2a38,
   0x1e939c54a6fa239c6c2fdcd2e668e2d34ffb0b20e25a7848b9d13f178e65ff6a),
  (0x28fb77fc93756d8d4a8f2f5955ff6357fb6ed07b5560c3603316846779cee7f6,
   0x30cd02ff461955c2731b0c6ee1d4f24bc8d470e2cb227688e3e21b78b2cf5612),
  (0x18b5fe2435aa0912494c3274684911316fb9f18e4e5e96dd8e9c4a02e5ea9126,
   0x35d435039f73bf9a315eda1d1b42789fc9487b693b11267e49560a928dfc8d75),
  (0x36f45328c00773d294beb29aad36c2c639312d4d6b30e2e7001068219f962f62,
   0x14278ff8e95156bef47f3fd3d0b6f29965e51f6f4823cbd8e4f30b411e5dd8b5),
  (0x1960ed3be23f8c8c715faab5f71cb572a2bcccd960a9fdabe14fd0add91e2015,
   0x162af9d0f176eeb6947eec8e5f3c08d9a0e0d86ff79c44906d4de79232d975b0),
  (0x12b48f67c25dddea482d415e0aa4336edac2fd2ff97919f877be2a89644f4e4f,
   0x310af9699f04356b0e483cee96b63430fa86152d2046a6bd1447b3565495fdc2),
  (0x15b8acf0dafc6bd09dabc67e0ab67fbcff1d52e96c430eed49d9568f4b4990b2,
   0x0ed56792c5bc56a9857ef9df9683371a858a4302b8edaede04db2abcc8afebe1),
  (0x190331a9ed7caf8ccc185b4414ce3800723fec3ac6fd93888fc8c4bb97be29b8,
   0x06cad05eb165eacc32c68966238e41257fcb5d2c98f1ca496e488eb0820c1768),
  (0x3383b385084db8714192c0f4f3650b999b1ce94465d8d36c05d673c099424c38,
   0x083ee1cb29d36b81458e9783e3eda2b5017f86b0258346ed41a3b162abb442dc),
  (0x363db7fbcd58d72cb833a5885741cd5eed9c7b2af66c175fe47695437977767d,
   0x08b11978df111b34bca3b4dc3212594ee6eb366c2b43078bf31393cbd9f802e3),
  (0x3664934505c4d86e715af92e56f197eaa35bdb7ddc0866ab77cea7059e6f006c,
   0x1d4209b867f69ae61ba577b8d65c45771c3e0f6768dd602c9c53e468a11dcffc),
  (0x3a32fb37acbef3c327a8f9ffd28b23087a1bb8ccb65a04e5260a5380a10f5880,
   0x1c9f90fd5778ec0ffe453ec9a172f21efed9b9fc0c618135914a9b46a3749954),
  (0x0a0e695495774dec2c039b33a27f913b2c2ed023b39e90049910a461c2093108,
   0x36b5ea1f1eff932d40bee04681a5cc0047badd6723521eede6b9b73d454990d8),
  (0x217c55a48acb9a5d783647d3410ba538ca79c17c09e651e1d2e003984661f7a3,
   0x3fff53235b489bbe3a719cfc8a1b9a1c02c7b694dc6da3591bd20b6c04fde263),
  (0x336632de53525f98d0f6f6cf794f162df999b1a1db9c75c2e25bd2f666fc16d2,
   0x2bc61d1f88b2bab0534e0c050c08e762807c7b25a72c04ed1c683a799230e098),
  (0x3123cab004e740731b430a987ad47948c402cf860c69c2f86ee1ad026d113806,
   0x38f24ab35569517a5da681883d2a52ab3d352c063e65b2b528acc01eaf741193),
  (0x22d907c25b470494b56be361456f7da331d7cf3d232622c16baf341c27029a80,
   0x3fb35b5c9ff2ce92c7b4860ca4fd0f1a9e15c19c8b040ec1811008ea9321b2e1),
  (0x1e4c9bb85e7735026829f36404dfce6ae3bb1c30aa5a20183eb4cbe957c3215d,
   0x16c2b4901be1772e5b046f41e82ffa8dedb3cacf43f8d2ebf9275406c35ab692),
  (0x000ae05a111751b6440d8c068bb15a059fa2042ebf14310e91f25bb00df3b325,
   0x0dd4182d092290ad35bd756d82e4652293e90e94a94847fc71a9f252e8dc96fc),
  (0x1fb6f3c4cf65d002f06982b1791e1812893e88511ab333daac7d898a152e395a,
   0x3c4ce7d26eb9a37296bcaf4958aed45ecd1b883c113fa26265c5e104bca2bc38),
  (0x25709da20e468fbec20637a4c7c4ac9840a5041b7cbaa776867fb40fed9002ea,
   0x2fcbed3157c607959e4dec05ca8349d24a1e300841eae098651a689f4ec0fd53),
  (0x04fd1a36e04a7b99f45ce53c8b74a9412e8f21e3bfb9750fa5b51c60e8176fd1,
   0x1b7dcd69c52c070f3508ad2028180ba6ea3caa3d8393caee5ca772c99b5ad4f9),
  (0x2373bf50232b3f2251f77d4f7ddedce218c7142e8625e9c8f0764e26b3f1d20e,
   0x01ad049109050a6c98b5a96547c91289dafef5c40e05ae5d47b8d63d328cc660),
  (0x2070a6e31265c3dc7565d9ea3476c4a8e428df16cd1022ba1144a189947f94df,
   0x0c90c90905758d157edbdcb4d0e8bb0a9135871c349edbe791df7f7ddec9e146),
  (0x141d4aaddf8522b8e8de4d9c6a448c64087a5e391becb0e3497e9d18b31f1ea6,
   0x19f86f8b52e2d6d72051cfe304f9e8613455b0960f5ba73cff156277b7ae3c64),
  (0x22252c4f0dc9d926c50e65719c0730afe61ac293cba77cd69eb23cacee0c46a4,
   0x1b3fb8bcc227b8f361d7e3d09e64c51909d9c1543bf602d399ee8f102d204335),
  (0x2594f3af922c6c4cfb69b82ea0f34f2cc1fef8226717eb276b9ea4eadf65cb3f,
   0x244b96c75d78711b354de308ab36c4f9ba4ffa4ea7494caac431a2b76a21a9ae),
  (0x1a5951c525bff454b5f4dfd5e5b973ce66358e8aa347fefe4768edc365425192,
   0x2be0f2344af56d7738443e89e500e0126b01289041d219dd7e01049a8df5fd8a),
  (0x31bc5ab64e9f5fafdefa9b1eedbec1e13fe43c3a2886f22cae1e74fc1860213a,
   0x1fb95b9e53fb0d639925f875ae11ddf74272e09bf426f2c9bd19b196572a8513),
  (0x0347ed414f04efca0575b904ff3310d88974b02e45e8dca3b236a76308e87326,
   0x3419a1dbbc9a9880b135d6bf0377152a82a255744ed0515d18ebfd8932b50ad8),
  (0x2b7d7f9a0bc8cf07fe4ec3e95c514cd9ee8abd72619983678c8407148c42e400,
   0x2e12f9577e54b546a09f1e90db5efe7431c9d48271927dd4e58f7f613068dfd4),
  (0x20c0812b5d28266252e4595a47451abb78b02ff0db915adc3d25c1f3eb5614c1,
   0x1f8a670a47ae5415666623cce45aacb3bf21613f887f5cc1c166e032a3ff9774),
  (0x06148c65f99bda0a137c87e7327165a40040f5f6d5d0174b0e32ea98b2941bb3,
   0x0c869ddaefca80d1fe96302e40233b6d3b2b37a4b18007ab63485e06f44d7edc),
  (0x20aac0cedcdc1816f5caf3d6bab0c8eeb9b550568945d1c174e3303e17d41cf1,
   0x0286a34671e5743bcf39c8809f3877e27f65deedeb304907465b2a4bf80ca876),
  (0x11269317caf75d07b4e1c034c95950eb40f801e304f5df03fb50a168127fb04b,
   0x25a70d531d5baddf11f2a2f5a81c6934e2201b27f87d2e4b42c597bd71be93ad),
  (0x2026f4684a507b0c04ea4fe6f986a7ec4914c7830ca4f15f86c3b6121d8d3fa4,
   0x2b1091f0ffa9d7757ed94ab6144a18bf8b5c73b6b70e0033435e50f3797466eb),
  (0x04297a2c60467f76c59ced4acc762af065e3ce55379a46537335a5d615f285a5,
   0x329d3ddb9b5a922ddaf1e8bb06ca2eec1e13f010a49ea5c038f3ec3f02866257),
  (0x24508490e8873820f46d81a68261b4c86505dd5a729f0ed9400ae7f0113b1b88,
   0x15ead0702b540d1e869212f1d2668fc39ab193bd5e066a8635b81e5b7fea8621),
  (0x1d82d649701656dab5bc07dc6f54f30adfcd951f1c14d6f5958c8b6af42e66da,
   0x17855e76cc3ce4bea7b516d397675ff377abd96c461847be05bea7e3a36e01f9),
  (0x23730ed6879c4bf15741e067013de384d05fe1c24618bb6ffd0a310ab4fb5f5a,
   0x3ecd11be4f08056d556235b1256dea0fd75e56b39f76fd967e9ff7bcb94c5d16),
  (0x110738356e3d778a922b166ca2b2bb15a679db1451f3dcb03d044438d2b78ca6,
   0x0d84161a6b993a779d5535379131d95d2af0c617e626d52695cea45dd63eb7e2),
  (0x3b838a778a22ed9a66c14b9b525df889d2970d9a08431ff44df874c2f1615191,
   0x32db3f0c596c894cff05c2a94d11970e83f20b98433ff62b6786962106cbcaae),
  (0x003f014942522ca4c1bc54b7a9a36f475097014c31df3d6b18d26b17c5b795b4,
   0x39fae6ac0da9dcec750f6ae1dac84dba012a3a1714256ed0e704177368712b5d),
  (0x2ff0f181181a9fa88e65aa60d9c784416e6da891b75aa6f20022fc4fc1963017,
   0x2e6f5fdcb38caf4f0021c93655f72464e89309ca01bbbe0008ea646aeaa074f3),
  (0x0bcd43afaaf52fb7e919d31c2d328f5d7017bd727c8eb52c99bf57d65784c501,
   0x384ad0a41d529ba5e5c88a6e21e1948103a139f0df5202d260d05ba3c3d4e2a8),
  (0x37a065ab2b62bad6acc9531f91c217a795cb3d5426f80864ac1f1153693bc3fb,
   0x15a62e9a3e846efb45a9fabe17036e96157a5fe36bdc7a8625562833d728cc98),
  (0x1f4712b06b7773e3c1796b0c1aa27a8dbcb3c183689f69b684eb096660b57d7e,
   0x0ffb5c9c6c4ac3aaaae5c9f99f8c6e6ad4d2d9a44958e31e2e00a10af3c46f66),
  (0x3be0c3d21862d2b03f9c816683f2fe8d2284d8b0888fcc3aebdf427ce6aa6032,
   0x3fe4fabe5f260616b4012ac907b0916129a385cf563b538fd0684fe378250382),
  (0x3d6b987c95960b111e71e213e7add6cda808bac057cb7c720bc286a78d4dc29a,
   0x0a9f622c5b76581db43c7942dc38771be6b1afb28e9ae97ce4accdd37e1d475a),
  (0x0e97a5fab367fc4219fa9995c446fd032f9033b697592232346d1c37d315d20d,
   0x2b1199ab416dbef7812b72e42421a2995c3a72cf58489bcca4f978587b473a80),
  (0x0f1a0d419b391617cf98c5cc7f9a9cb219b0925f6f8f6b835e07f1b3b73a4e48,
   0x0cadfd0ba42eea59ce90d88046e7cabf2f3c0e5ba18ed660632fc83ef090fdec),
  (0x203e1e974451db54376356e8efebecee074a888afb1b0035238ccf7476ab5023,
   0x136688be56b9e7713d478f66532fd8fca271379b274f7284205fa8ccd857d1b7),
  (0x070b83940557a571ec3e7d70890f11b3ded66332130e59f92b08b53dbb1c746f,
   0x2e114723802f792cea12f0300d2a06e1679f36933fc65b4d93202c85006cfebc),
  (0x317aeda0114ee9f080f864c6bbd0c16c1d0d775ea3005f6d356fe85c2e67e247,
   0x2c021be9a8c29b4961f6a208798d28ecf9fc3a76ac883c1fcda645894bfc0455),
  (0x24942c9ced843a534ffc0b332c5a0750902853593102985b717aa137f5c5be89,
   0x1ec6b81de40c48dae8db271b351f54c1301ed666339fae29fbdb198d0cae4fa7),
  (0x05560da5b68a034a335d89f82091038da176392704e46feb1fadffb9714961e3,
   0x2cccb7076bde5545a745abb6b7a136fb8e19e08ddb9c008d7cbca06115ef3129),
  (0x27e4380e842ed733688e7e009bdc52e1ae9b1f8651c5f96c66bac59c6f881b40,
   0x0ced7d2b0b84855262cb3b48a39f91dccbf1c63d6c8bf57f1be847f3618d78db),
  (0x026abf29d79296474ec871664d23deae7929235c2bdf68802bc3ed47d3b19dae,
   0x397cdfb14d5465ce0d499ba7a480134c15ba29c7c672fad28951204b52626b96)]

/-- `SINSEMILLA_S`, the coordinates as the numbers given to `from_raw`. Models sinsemilla/primitives/sinsemilla_s.rs lines 7-14344. -/
def table : List (Nat × Nat) := part0 ++ part1 ++ part2 ++ part3 ++ part4 ++ part5 ++ part6 ++ part7 ++ part8 ++ part9 ++ part10 ++ part11 ++ part12 ++ part13 ++ part14 ++ part15

end Verif.Gadget.Sinsemilla
