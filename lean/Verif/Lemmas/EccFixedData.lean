import Verif.Lemmas.EccFixedTable

/-! The tables of windows of one generator of Pallas, `(-1, 2)`, checked. Each window is given by the number that makes the
second coordinates squares, and for each multiple its first coordinate, the root, and a root that shows that the negative is
not a square. -/

namespace Verif.Lemmas.Ecc

open Verif.Gadget Verif.Spec.EccFixed

set_option maxRecDepth 100000

def windowRows0 : List WindowRow := [
  (43655, [(0x1c0000000000000000000000000000000efee2ee4411acfc1303c567b0000003, 0x12f70d1d0c150a49bba0c3ebe04a0bb79fd5e0f0e71253b55efb470887241987, 0x5c800998b0395c2e9eb3b6f82d7eb680d9914b352afec5453abf3e9721c2cc2), (0x8e7566fbaa967edb84c45a7474edf4cfff647de5af5fc5cb7f08a3beb32d263, 0x337eaee71c88fd8b429f0050616004e6b09c06f92224e14011e61ec05cfa5066, 0x340e30561da9e5c3dd580e6174816313610db8d928d02ea074d19f30d42ec61f), (0x18db920d8e4a51c0c4a477d7e357919b4040698b612794f478b8bcfb8ebc86fc, 0x3e1848cd453bad6a32b3d8e2ba5671ef8a5943cf22435e80f5700234e3456065, 0x1ffbe2b8e770042bc7857bf186cf732685aba43bb9baf17d40735a893ac10958), (0x330aaaecedffbd4ccd1e2d490ddb9ffdb3d7db2a600cb15d46fb61f4fd700ed1, 0x1daaed69283c515d8a3d5681f0b830af7c93d1cf95022cd43633829317c93223, 0x2651bfe9fd4cad2ec1801aeb05a7be2c4bc2320b6d30fa60c296fdab282e3ab6), (0x5076391b23ae1f01fa981fb205cb99f433c8d8fdb674b8436e77dd4f3c624eb, 0x1e332d506662bed2ad435c6bf8df380700f476ae0c9d0aa430ecf692c946272e, 0xd02fbcb87d4020af5a4771770343cc090207b368939638592c9fa7c47ff6e77), (0x19a43814b1ab00cc22bc3202b1f8d8e33e745c8555eca6550a5410ab029d8b99, 0x363250ca6cd47a20586053bdf8f66ec4c16e701be95191fc9d86185bf19199bb, 0x557761938fa65e74c467aebdeabeb6ac487fed4e012de259243f4009cb36ce6), (0x345decb06f7143c0e80d53270686b6b3b84c38dee8808b333b5598770d94ef07, 0x30f3e373eece5736afa9c074d2e6d1762d7cf6ce46d300754e4187bbe553be4, 0x7bd1211d72af446b33789b63607103af9dd7d557fc7bdb6c581cf85fb7d4204), (0xcced27ab1c7ae0657329a15056b11cebd1f502b99f6232d22719b4a702c1b79, 0x2bfba5a36ac6645db536a2db2df006161c292d637552c080ede2dba3d21aee0b, 0x27df8de434ac80fef078ccb6e064e786f3a4543b9f053bd7d0d5b919ba591f41)]),
  (109180, [(0x2b63203d6bb657e0ede720751857d3c1f06b175577cb291ed5257c883aba0521, 0x175d2062cb45d341866f01c4e7c19842a99f8647a297b446e03b13a4ae23d8ee, 0xa7f3e82822f3783fd5b0708df504af314347178aba2ac724a59ed0aa6080ac), (0x16eb7a733370c0827b8d0d5c2b7d1ffffa1acd0b52658a73fbd5e1ec3d2ffa33, 0x3172916ef55f9314034b437c7c242591f48beb0254ad7f9be04f347cd7df4cfb, 0x11a506db097f6699397c7f0202b7d46dd20a649093d93ee6c7c4407522dff21), (0x265c52030dffe97a301de8df7a70f23f533f18620327c59869ecdc2154a63432, 0x1b2aec196465c05c1ca15b6c02a2ef918f5e209e0ab7dda7904c2bdb3baded0c, 0x3fe0e72af512fabb14c729fa6418107a5735802590324ecaabc44ca65533bd4d), (0x88e65909777a7f0bf9499993e7baa8b22e98d52292f720ae982dc15738644a8, 0x28ae2e4c5755ff2da6af8ec66563eaf1fc0714b87f4e095fbce0844c8a8c3444, 0xd617dcf114ff6dc885776360e97c7c3f4c12252fae44710d67cbc15e69aa09c), (0x1bc6a7bcbc63714ab78a4e979775801ec782faffdd513ffc2bf38095d2796e83, 0x356fba552d188b31576beb4d5ca756fe6ed82fcc798b5bd7e414b63d109dcf9f, 0x3a791d1879681e7d04746ffc4b49121bb4975ad0f9e6123ac434a6d79a7c7ed), (0xa7f416a35e197e3ef0a652859c84173eaf2e5c95ec4af4c496ccb93fede74d6, 0x8b25246d3fbe9d9cdf87b7d874d669f43a3aef13d0d0890d63d63f737e0e45f, 0x11938154a0420de6851e5e042bd3cea8006adb6cd7bb40afdf175ca981f698ce), (0x1dcb77e18ee2dd61653dba29d2e8ef0bdcdc76ea475b39978ef280d15d6f2f1, 0x1bcd527fa99943da004cf48f859368293ddc489213e0081771bd44139b53e592, 0x2c9c26e4446bfc124e01496eb743048686b1d4264838832ab8b8a0f4d5d9be55), (0x1c25058be65676ff0dcf71f7ec76c779890dc7b0124f5109e58844d0251568b1, 0x2c71ae72d31ae7a5234b709a658d6aa3ceef266609483b16f500fe4dd7779066, 0x1b28ce97c283d57bd3fddcaa7d1337d002b4842571b4b84bcf3803b568a3f4a4)]),
  (61855, [(0xdec67c5865cc934c6c5f772ce6499723d8b8b7729276803c9db0f675b85d2a3, 0x29ca854f9a738e032547c525a45c018fdcf0702cb1496a4ed7447120bb2f386e, 0x2148a0db250bb9a4ced15c7397912514085617271ae6ba32c11dad928dac7861), (0x37d25c8fe0bea5e8c1b4d61cfe354e82d9ff0bd25729d38eb940314c1db83a84, 0x3c572d9004887f2523d0c0fa981c9ad742614ebe15c4ec6e38dcdf2b31ffda3e, 0x5fff765417736a9a704e454a8bd253f69401a4b2031bd0ad7b59ebe1b89b559), (0xb44afb72675365751d6ca10461092b3166a62b56be9aab71b8e3afff069b68f, 0x2a10f72a0705b328d8be0aa23904ea9ed024028638eccc1fa3889797e2a005ca, 0x239c1901a9dce1a329d0858d17f93ff758a2240ce94cc08876eb06335df230fe), (0x1de8f00703cd6c1a3445374f63e54f6fae5a058655639ada8d123f4d56865261, 0x1301d731b993011601f38f269b6e42310a8e68c21b4bae93fbad926e21c7ffbe, 0x20a65ecd03a36491ad08c9ef0ff80487f963aad81c21c5c1d22a34292af47439), (0xa7e7a084f7e23280b30a93f781ac5f7a5aa315c12f8b13df6b28b532dc79f10, 0x2a1d66c03b402ff2c7112e2fc85a0898101b35c6a3c4b949bf4d17d93b799bab, 0x3a91a217cbe0e5f74d3696254b942f204a48157ebacc4fda93167b9e5cf091a), (0x14e5694f6733427a7ce8c5bafd171022159c072859d651682c6752178a73129e, 0x26f370c330ad4231cd4f995de54a59b5229db29067a1950c7bb98efe12fc120d, 0x1b34d26545334851934d09706aa1c9d43fbf2d262ba440128b22dccb32547e78), (0x1621e5595864e44b33b75ea156b673d6765d8f3717ebc8f070ec6b31a0e622f5, 0x145cd901ecad1637750882b34dfd1b57571436f2103efeabc7dfbd896d7e8cf2, 0x29e38d0f0bd761101bb160aa15ae9aee584e73921cee29a198ea0b3df7206100), (0x259e5325a1fa5ec1c82994b9ee91c141becddc7b3681c85328e90977f222391d, 0x384654b3679c42db85894fe45864eeadabe949cc5ab849a3fe2fb6f6b15bda19, 0x380557f1ab1ec159fe502d697a110b815f683e9624e780b27b7cf9a6f499f6c7)]),
  (22792, [(0x1522d5a4b71211939dfe3b7066d27c8aa09415d0c215c8e5446bd74b84ee40d8, 0x2a55af61a1b20673d39a874370ed95a456a8e768b5300ad6f381be28adc1262d, 0x2bef7a5a845b826b6ef9f75da8f7186cd8120f6fdb2b501b38e7e11ec05673cd), (0x28332094a1d0f980116f38412aa74c064baea3e6a2fcc494a5992439693e9c5e, 0x320b9c5d4d8a50d2302ece85bb9731bfc97f40e7135d0d1185c06f6567f33c3f, 0x1135396b2284c364282429464f43f542166eed2d590659e1c468957a9cab2583), (0x3d44e14b2af0ca7c860cf263844b2fda5407114285d469fd538c99107fe07e85, 0x3eb1dc91970d462eb32add844235fe8752ae72795a3f1fb6db11cbd04a95bd33, 0x326f18012169a405367d01ee57d5f08a8daad2c06ff9d74939b70563c368650f), (0x3163a5edbc9121939762dd961f2f81396c8e1b5df3e7a726c574ffa46360d4c9, 0x2855de76fbcfc9ca55b82c031aeb8408fb05458614c4a63e6a72194cacdbbe0d, 0x6cb92e73360f948625241d83e3db2463fc78fd48e865b2afd13835d867c4720), (0x2c90b37614da3fac52d575a21de88f12ae95a8a5298350a4fd7d4bae26eb764d, 0x31637ec70d27c54457530374a3458fb02b2c7f6e5bc69ba417f3a05c3c5d5324, 0x125fe721000604ab923dc7cee49be10d5b1916fbc5128dc28e36d2fe966ce928), (0x3de17911f78ee8df42a6784d868fba40827446f68c72c38721ef6bf77c372bf1, 0x23dfbeba7259078ec797c17e49a6070d607ab8ecdee45a4529a83fb7ebb3df32, 0x576b23a1759234f1f13c6268cac1607036a2fb947a153d4307d91d9313c0dc7), (0x27ab6ea080287abf0311ef478169bdebadb9270bde76ff472e77f48762ace3e0, 0x39f6a3791a19e31f328ee030c4bf5604662194e034cce2f7b1b48e455307f52b, 0x17b4da5f8043a7fce2a2870e8ea7d2edb4b3da8faede7e68ccb73bfafd0e6426), (0x37abb0b1d926513f7f1331f5b249b060dd7a52a0f7ba75de3ea7eb7167893ba7, 0x412917c424da446effb1ebf4f916f9f67e8fd6662cce96e067a18c70912d9a4, 0x283b7316132b3d4b95ac12c01d8779a77da85a3477e6f017d90eaf5c2b1eceee)]),
  (14323, [(0x2138dec9d478796ed51797e095f7333bc0e13e4b347b9f9e8008f2698945e3ce, 0xf2246a0460747e778224e33cd3483c13a5fe46d33b9cc0f453ec0b3b2090d83, 0x11c1d55ab7deb3b4e959e06b9b8b9db84e89b38aa596672642265f6eb5f0ea14), (0x2a775565dc5d83dee7625a8828db56d1b8c63953a9c9b1ec5f5698a5a0e676a, 0x1227a19b8a66627c704082425aa8f52c382388ff7bcd3ed2374b86705df1a3a5, 0x1da52bd8429d5b7a848e59e2560e81e0073b0fdbc271d61255077a039f0e1c55), (0x10f76c4516380b855d60518afefeb8e302c6ff6888d8a0dc948e1e8a64e5e9aa, 0x24a058a96ac897be0dfee6f10de378d2c66b0e01da5ceb766d355fd24aa5bfec, 0xd97aaa06cf8287a47d8d334144a70d42de1865d681622bf40f5cae3e3d4b340), (0x31ed9380312642f3d1931e414622ab3f70c9e8f7186f981b9db15047be9c800c, 0x32dde87c0840b278babd86011cdf6c41b5b88506bd19012a2ee657aea2b5104, 0x315d0f450d0706caf72568a20dff259379c867c4bd124b57fc6606e6896942be), (0x50ce270c16af8066e3722035facd59d18e6000c06f91c946367a1410473dfed, 0x7839a6fba15330d47c5eeea785429521bef756997cedf71ad97200d67db8030, 0x10aae82ab5ea6ea1269eca0e9c4c6ee93f2d37e38911d79f56536cec4bb93270), (0x29abb9550dacb9707c3f0904d922d8ee662bef07fd4d04d6c2f674af95698494, 0x1f8c1622db0bf0b58023578c34a730ecf88002d8f64b4ead1bc621e075c1c2b5, 0x3dc363301cff14f26887dcf83ca8d917ae781804d427cd288b3cfbc2b0605b27), (0x1a190c35b5381ff30797034ce87e85ce8bd87a664445ba5d222db63cb7ec8098, 0x3c607cbf40643179a67a06437b257449c8c49a4d3563e94b7c23fc580ff4c1c9, 0x36acbd4f475fa68b1304216f37a9ea215d9d1fb0953e72ed4db69b4a8f0a1966), (0x316fcda77095f38442b4c058526aa458d57c8dfa210e06881b487492768e79ca, 0x1e11579f466406a5945ca50f88516ca16d6833977756511b65659add95771a6c, 0x1016e7f2c8bcd80edb8e8b29465c52102e4d8a92c80c839300be7adbf017b072)]),
  (49340, [(0x1f7867fbf8ba29771268a7ee1915a2fcafe5fda4b5f7c321d88066c30ab72815, 0x38761856281aed82f1e06e93597369f22ab82c9148dd33e8664eebaa8a98655f, 0x20a73a6bf4dcebf1abcf1e5f35af537e7ce345d3c569d15b7ddf461bed8cafc5), (0x33799a2d303bcdb6e60a71d8dbbefa37d6ad16ca3373afaa4991a92d198588bd, 0x2b05d467f5f2830f8149b5f78b165d9eade38081a317c3233d03dec124f9d1fe, 0x1798154a424dcf8ffa0ec47dace4e88c69211c0e885cebada94d0641b5f90303), (0x30c2b90d23688e8e8c59017c01555aa20e77c1df3ca7e07442c63d679ba12bfe, 0x137ed06154d3d2d6f2cf2eb698e6dda16c28fd9a23d5db14c54d7f8b643ec649, 0x3e4d151803fb1cba86f90063761eb210bb95f15d7d1b12d10fd2e6d533fc9f5a), (0xdb80dea42979b339e1ec68ca48a156ba8ba35fe87cca98a559eb4883c76cd28, 0x11dd88f383942ffa705bb20bc3ee26ee0e67f77029654156846d52d7228b1a8f, 0x1a4c6f9b85c386477fd4f49050e604f85ed0a61feee9c31016ca9f1bceac5a64), (0x36a96cdb5a1b091964720e933f3f84c030b4f9618ab217fc50766c69cd3232e4, 0x337ad31831a37f199ae334f92f623d91e84751630db7d53a37da9231372e1f4e, 0x28f1d3893f7f6ff033909a1a785a4c54c8022dd5cf0d238c63aaf576e4875c32), (0x2b030c538f405053a08f7f2ea8da8503817505911a289463b04e4030d33e58cd, 0x245229514152b406e81441110faf873bd02f72a9c442ae213e6466388327c2ca, 0x14dcacad6b499b14d4d04f834fa59b636ac482a0222424fe1a96dc36b7f17647), (0xaee5c862a583676a8b39aedfcdfe48fe8b6e2b460161432ea07084b47602381, 0x18cb7c22d8e02c2f59f15386107f4fd0f9edfe61ba786ebf4d97119511091fc6, 0x1cb1db803e40aa5812fdb2834c2c277e0e24a5d05bec0c2810cddd24817c0b5d), (0x391ffb717c3eeea8376c8e6b0cc86d15c9b2a7d7dc1e7b2dd58d078184f7f185, 0x29974db5fa676f209b5315a2b9e167ae1a83e02b2982541fa9846535437b394a, 0x1f37e1f7df518a6a2aa7949aa6fde05ee9c1f896b308a8e7909fed483702fd6c)]),
  (44106, [(0x29fae509ddaa173033eab1e9bc38fd8980ede4f5e1a56e5d96c940e6ae3a2cff, 0x36496968453be26f8302a7360921943f8e51fed926f4f0d5cf7083480cbcd6e0, 0x6a330ba412dd0e84a2f684772fad840b3963c57ea17b4b90719bd783c6ebf41), (0x27d2231114d1407cefc665fa70a71831aa6a5b54ef937db85f4d4ec1af2a8e67, 0x1ea271848587e1024d2418f6686baa52acbe146c59b57d6f97d3ef67c8ad0703, 0x598b509188a4def467d97bd9eb3c83b2e942699889dd9a458b815107f98ac85), (0x790fb19ba1df50a63011b4128e2c9a5383602a3c2dd336c037d0f92827fcfe6, 0x23f69b47addd44f30c7e78d7ed12ece1b144fa81eab7af1ffe9d6eaada40477a, 0x25db43d0a0045e19852756934adeeb260de2d1a34d6a07890d4020f1b241af95), (0xbb94c82948bcb640647eb56cc62fd4c26673213edeba5e4b319bb4b5699fced, 0x7761a63adaf00bbbb7b95b818f448a59c2fbf6a6ca783c3d37f93bb9180a58f, 0x2832e0ed42650959b732441e4551e04f1bbfaf633473f0b79fd5bb58d93a3b60), (0x22b6f943fcff22fed75abbfbdb06ecc3dac4c707f5502a0970489539035efadd, 0x338b1638d081469b2ebdaa2b73ee27231f70c0fc8450dbc5076f5ab970e931c4, 0x260e3a058dd5b389cbd43020d638789ecfc2a7c31a24ac226ed06ebba7993a7d), (0x19ae54b302e3b337326b7d5b8a35660d45e24b0aae498db4dcf8aaa183205c0e, 0x1d215fa42b2cee3b3f21c77f388def54cbf3133d2576932ffbe7d1c4dd1516b6, 0x255932bb524a1550c109a52ff60308ed9ccc8c7acf23f8660e42e1d6801446b3), (0x29da1f6d3f1eecc149409d71a4519c4d3a1e3f5284293e132474052ca5732035, 0x13f4314ce2400ccb3fa6a7d67222dfb53c61c3c7b4651cdefd33b4dfdde04da4, 0x2098d9df612c8b6f66772dd603e52fcf038b72fbd450a04a38dc29acf8563ac6), (0x133e298a320053a57b3edfe87724d9f594bcf5e312dbae2bf9eced3dde16459e, 0x2bb34da022d1d1787670d1b4d352198d1462341b20549dbd628137b92a29601f, 0x1c2df64ee5aa20b9e900bd55be942843706ef2191a504d606b231635816d9e03)]),
  (6761, [(0x16dc2168a0d326fd416a3043ff4756d9ee6bd72e2c5e3f50e478803134fb5cf, 0x29463dfdaa96b47998c8a1367f422841aa5b764cadd7b25a4b781e683c6b12b9, 0x2e1db24b043f87eda78fd72690a655e5bfc2dd04888bb7537963cf1db0641d2a), (0x1abde4f6bcccdb883a26098adc92ac3ff9c442bd23d6b755fbeff660ef884979, 0xfb687f0c60269b9b51155c9cc64b71d19c988ddbd5910a2a42b68508a222e0d, 0x107e8aeafa60919487e5d18b271b14d0bd418e88ccf065a07114aa9bcf52c33e), (0xb7c01915180a093574a08e775040c5cd415474c3717a5768a09ce2663a40ae3, 0xaa1b0b7e35708b0bf0ab8a5cfc7f1e346fc481bdccc0af7da538f30fe3ef460, 0x14df6af0ce5c2ecead9c4e75b4cbdc5fe5a7892ed326a1e294b7304e34c4e9d1), (0x3b6f9410b200ca6789c5c09f557221bc0c311757ec3ad988b780d3053dcc6968, 0x13a78ff0230f4ad8e1032e117a089c626412f5be2d7e5a640a1fb85b2f3d3422, 0x1551672c2597eed20b2d34e46f154e1d09d2218632fe8a6336339bee622d5982), (0x283e689681653e447747b53bbf4976aaf36f5035519e5fccb9f64b80053411fd, 0x8ea613d079f05306eef86e4c183ac56b3b1385fe637a47ef9206d28f2b1e32a, 0x131423114992f8f9760934e4198853776f89acd941a414c417befbbc533488f1), (0xf17a5b62c7a6c60f90e35cbb28c93e23cf20c7633abd8e2f148a74ca6f41fe8, 0x157fe2533cad45178a1b738b20c64139d3246ef30bbf5f628a91e33a2533e5db, 0x6175cb122be521948560aa61eeaf4d8634d6ccc8518b3f0a2f4b7cda2332855), (0x1e02bbb526ad11a8f323731cd1d949b30635adecc1a91303e354182c9a771a0b, 0x2ff5b3fec06a8fc9d63f924030b3cfbb70a157c19f5b7022ab58bb4ee03a069, 0xb6e97792cdbe0eb497a880cb24d07a833e0c7c7f2589cb2112d1bfb828a3b40), (0x27d1d59881dec488727dc5b562ea6f63bb5d1522a85d01f700ec5c21bb17f144, 0x35b70f0a248cea1ffc466cd5dfb1130162fc0cf1607e4e9ae68a59f51746b43f, 0x194c10518661d0940921a3f25ae3ffc82b5a27e86af7855af995d4a44aabfabc)]),
  (47940, [(0xadece9b94a0141da7378b261047c0ca24b1c1ef05e2055d9ace940d47867319, 0x1fed61a4056e090f282ef39423047ad7d23435de7084289748add4f2654882f3, 0x1011d980c65dd578afb9e8669e41427dba36095201ce0098732397c621b288b7), (0x1d306eb8302d2a0c6d4ecccf111ab462dfe7cf774847bdd86f954ebf4d7a73c5, 0xa433de565bcc8dc3233defb917746f088423e6cd35f6d3add93bbb5f7be6601, 0x244bd49b70b8befcaa4bbb472b67be2f2f48c329b1a2d3ade1b795b179e886d7), (0x635a31f155bb759e792cd7369d30b4827cf05d698f808a1e09b8ed3ccbe410c, 0x2b1dc7e8dd37ace2f024ac34e4bdab08d69b1a905e5be15e09de88f6da02da91, 0x2c84a304372b070ee7284e495e8bf43037e4efb05ab57d7a63ad4dfcad0b9c59), (0x36dd3acfe80a6d6fd4d3f7574248caa5c51ebb93036c6aee0ab63ba820a8b851, 0xff5857d28cc111f21c5a5319993bbc9066bc6ba6e98b04e278a80c8bf74ee2f, 0x3f710fc00ab5c5e10a64de6339dc9c55d7df23d6e4f404fe2a878fcf775e471d), (0x2469f712247a8e3b1fe3d3b8af1bc92218eb1b73fd4f5837229de5c72d1956b, 0x35e8f9ead2da56da11e1322ddcb521c1fa58c03cdec77d3cf4d9b7488225a9d, 0x190996209382323dbfeb33069c9e901723ca60aca857fa0d38112e43e56a7916), (0x21002f7730f75b01cccf3994a5c2134fffe140a81a369cb88688871b9ae0f963, 0x1991df01f132594c357efdc1f4553022bdd636a4689cce1b7bbff6bbbb1e6c74, 0xb948c66e8a3f557376077006c600eaefe538e734e1ced7d872dd7f8f451bb05), (0x1c2f5ace99662c8c5fc41a90821f504ee995c6b518338216a9d7a0aff7e5b078, 0x1549e24f6ec792f5b227ef1d74730c089f82d9217cf90a3cbf8fc494697c226a, 0x1561f21cc0b11438b7dab1853dbc4936c5d4d365a30c1835a1dabd74b12b74d2), (0x21e5a9c39fd9a99ea0cbe1bf71bc795744a4cbd2caa61fb137c2bffa9d3420f8, 0x3da25120e8a1dc09a811e18e091e60b55147f680ed96bfef49d487c71fbdcee, 0x19cde77522a5a0e2c6388eac1812b96eb00950bb2bfee5ff6fb0d6b36b83a373)]),
  (79582, [(0x7924f429e6518fa218e3b2f7e145a1a4249c683df9a383b64f103dadc3934f6, 0xa7fe045dc6febb49b93e0a5c262a1e4af20f5d051f54846e3daddd0c98d375f, 0x17f2282df0f4e6f4dfc7d25de38e296248cdc10931b3faf5343786f06f0fe12), (0x2c6c428a7e5fd74ccaa1bcdf173994e13c75f0c05b4456580aa6fbef39e853f1, 0xfb3b16c07fcddde5d609b552b3a2440fbc5ce28acb91f08ea49787a0b4c7ef3, 0x13db1615e345b0c9232b2f67f172b89489bbf1751919891ebfffca3c7af23a65), (0xc6d1ef4a7bb76fa0dea51a6f29757ba631ea1b1ab5fb37ebdd3bf0d454c5810, 0x2156360651d04c3683feab8b188c3dbd117835fb2d291eb4a53f598996fbb2a3, 0x341741c10656a7b453f375f09e8e83f0446d5793777191ab5775fcc332f177d2), (0x365addca3f9581a3b25da522284ec0618f266a27af31de0d438f2a5a83709f9f, 0x22127a41ead87549115a3bffebce3b1c9bf63769b2419eeda8ae699869961301, 0x2bab23f7f580ed9c183a594c6857e2b04944d589f047b18849bfe31c44b56674), (0x289188b65c05c991fa9b86308962c14dc7c5dc86a818c699cd3d344348eb91cd, 0x9cd2cedff9d079631f1a78f32e65b7cf6b32939b7310a8ff6fa8bc34383241b, 0xb48d13f1b7eee2d6c08b4d23d0e23d22a2292b24cb6c6b3536226fc192f80cc), (0x393ff388f9251a56ca0947be9f97c88a1de09fd15c29e3dd9432aedb7b9f3d69, 0x29f57d7d3c69ae3afa7794d80f8666dff1a4fc9df930b6939d556f0d3635ba59, 0x16e16853ae5108f5f39bbc9074db2c55a5301270780c4eff7ab50977f3835535), (0x2c151de39484f31a2e26677cadc0b95238ca9599feb58a91face89ec92d510f4, 0x23aa08b6aeb8954beb38bbda5bc0a20071d31690ed76f690aabf12d9028fe0e9, 0x1ce06cb5004d1427c24bfc7fdd594373b11fd213f3cc824c8638e451aae8964e), (0x29806dcdf4e1ac43bd6de71c0327bc1df6a5dfba74bcac591f62d6c44e6c64b0, 0xaab8b345730c8564008892ff166b721d24578e4096c70bd53f3558aaeec103c, 0x359ba2d41633bdfc4583266d475f1bea1d6dd489c7c5bda4b33d1ba49fa40268)]),
  (3365, [(0x24eb81f7a3878002004c0823d822924e17085a3779e20797e9a42d9530343cd8, 0x2b1e9197b51c9d81cbf851c9fb5711217dd27b350d0b7e6aa272eec2c0f6b47e, 0x1ceab85dec107e8181042e0c44f0992be947d7f3f057702316bbccd3877a4fab), (0x19bb50356241c9899d41427eaac894994110c476d6f5b62eb7e81cff7a618280, 0x185bce4dd542b029307a11c73ffee25832d0ed0ebab7d56d9a3c92db5e202695, 0x1152dee72ba3ba3cb49e0fc82a0e70a701be7dc7495ff48fb89b7d8ebf1d6bda), (0x21d157289595ab885baa540827876005ef3d888b783dd9d85e01c472f042e69, 0x34e4187e114c0ae86bd8b7066ef773d6399efa3a7fda9ab8f1b45ab0f686c24d, 0xf2738cd8dc7855d497d04a19831eda4c2de5aa636bee01e8473af80d70c6a49), (0x86a9da9b19f12c5ce27249dd12d73089e0f643b5778d01ca33855b5ac0cc14e, 0x34addfa76507ec49cdf92f86ec98e8921835f24f2eb1ef2f5772346bc0d12e92, 0x27b0df460870146a65f32b949022a5ad9ca4fc5eeac222fbeed28c7c91a4850b), (0x2ecf2d9072bf83cefc5de8e3ad901050cf396d8a5373df6dac140b4b436c006c, 0x146645bcf7b9dd932cfa0bdd6039a786c2313bab870199cd9902269fb73bd457, 0x201c1d8a57c861d7ef3d6ff398ebb1ab4d9b028d175f3398a9e3c60a31fbb4d5), (0x26f727a31db3f7894ce9b0c71565c949e401da68b9c8e10a1b0f6ea1f0b59ce7, 0x1a18aa0c7527d0bc9115fe6f56dd4cf63544f827289078ccb0d174de8f237721, 0x4a199f8b667b6292a0bdb2468d7bb67bb3f7ee3ae002eae12fc42933105bfe0), (0x4644a391082cfe1e4dc87b5052a2f03cb7fc002f15bcec498daec07b5866da0, 0x14041d877833c9d84aa6978ea54e39f6d1ef21c0a168767794338722a3b20a98, 0x2f6864f63bba160380dc0d0b260a0b9402376f05ba32838ae2786cd6805eb0a0), (0x3293c2b165504f6fa274437f85887a028934765f225eaf9a562c90d942b91520, 0x376eee4c280e98fc6ebd6a340c8953a649b22b3e8f7705450d7ca4b3fe903b59, 0xcd94acb3971174b99b30a259666818ac109ef47ee28f349fa1321a121f3ecef)])]

def windowRows1 : List WindowRow := [
  (51667, [(0x39056dc14eb71fb4565c2400133ccd33ea4b0a296ab539f1dff3669d750b7217, 0x28608c93a923482d11d9d09c6b23c3f381bc71f051bb18406f1ffcfc467b7dd1, 0x2254083ca4b67456d0f916d7da1a9a31bdc6dca9c9c8dff6a26617d2cedf8a5e), (0x2fd1e7cf58c199914b7a3802c80a5c7374b4ca81e6d16b2dac128c7a0c60e4fd, 0x2136d0cafc09b9466f98077e2577fa0c7500654b5c9fae86e4f9efc786fdc5cf, 0x3bedbb1d4bbf553bafba31c222b8acb71b9bffee6b59995a2dea2c4ee5b444e8), (0x29bf55c6a1b3d869028cf9a456b8d0f6e5bd916d6086d726bd51d7e59ebb25fd, 0x3ef6fe6642484fc81948de1fb5c7e49e94731d42b6c3d4a87bed0febda63aeb3, 0x36d4d18715331a66f30d19bd5a878eed92b898d66f4aafdb27ac6ab43c179a90), (0x2ff300ba2b25a8b18dd0848268298321a1bae20fe611ea7e92c41faca2edab6a, 0x3a57ec3a12a80fe88ed3dc13f6d5a2aef72cfcbcfe480fb9cf6fe128ec3ac0f4, 0x2a64a86f03acd254bc92bb0e1998978f49cfa0dbe76936a28ad1cbed9941f3a6), (0x2f398da658c9a47abca22b7ef5a352d388b9503f1e6406e42651a39007625c7, 0x3ed03503156713ee5fafc831813ca255dd0f2463d75e20707eeedc51df2b3e2f, 0x199316790c27336ba5f04b0c98aa0d16478f60780ce45ab096f33a5d52b9f952), (0x35103572407425128e73a8bc6d89453187a16af8b3e218347fd0484aa2a2c3f, 0x2a9d06c96cdfa1cbeb876997c2328c790edd78f0f0a92e257ddcdea151f2dd0e, 0x2d3dfc29486f2e88cc7d8351857e198a095330c2761565bf5c591c8fe80094fe), (0x2df7af6ca1667f65c26be671503960b355e160b5542e33abe896a3f7780c5839, 0x2cf4fa634fdd7de9ec982e605bddc459dc75ec0460010d3dc9c601bd8dac28e, 0x75643ebe3c9364a1e732ad8454d98f0655e6ca076c8e5952f8fa405c27d15fa), (0x1cae66e393e20a3528a9754f91d5508ffe73ad5e8062c5ada8c1f56ce13d8d42, 0xfa9773c27fa57207bd811448982ccbd87234e0b2e6c2fb57f0aaa69a4cf3139, 0x1e850fba5b63483618490846cf65fb80b4d58bf8b57892b849339e8b9b3e1092)]),
  (23557, [(0x3f93c36515527fb128fd02db96b42fbdb6aa4233f1615aa0386ee16170928277, 0x3f5ac3cab413a65f84ef9dfc8431cf1114eec653ac6904d428072902fee9994c, 0x1517d8bc9af3a91f00f9ca9d5cce15908d18056e12e6b084abd9ed33d0091189), (0x1a31c95255dc7cba6a805bcc4d0c61b04fcded4cb32dc3a90dedf46ee457f72f, 0x3c8fed3d885a551471412983ac11eeb97fb83bb375278fe936e82b6cfba66764, 0x3391455aaf1274c12655518ae2d274cde44f0c17c017e84b79b567d9afe37c96), (0xe6bd9b7d980656782558da27c481d4317bf074484fc4a9140cc8c3b6e5f1fd4, 0x36a56d9c1eb5119aa9de4385dc636363ce39d1f587d16fccd95e16c24538cf22, 0x499f64e968cd5aea25e0932bb7d0b5fbaa945e4a1a67524c13fae2471bce76a), (0x1b45df263debcb14933f01fbe9069c3fa592a0c130248e7d2f72c7f47d5ee05f, 0x1a242948fb50b0246dbd4d08bc717d87d32cd3f5daa0e28962c2e910b561715c, 0x3b83285edf942257550977e228f2daa4f55ddc399aef416be7644def2054201b), (0x4044a00a00c26e93661ae4277f4a768c9c17649980f021fbcf530adb75cd84b, 0x134442249d1618372852b9bcec36f6d051cd080a88707c7f5c1a377d54f04b1, 0x1bbf9ee1aea5d74f1d447cb4e75550335779cb179ac910bf227c9d0db50b42dd), (0x19d524a3db2eed22fa25302aca79a2d92299e470679e642e18a728cfdb92a05f, 0x1d79a99e54bc02d523be068188819ca1b3c5dec9dbe0c6d6c9ef62e37b68c6df, 0x798de26f726d78d276522d25c36caab95cec94b937e2785afdff576ab54bb0), (0x9bca6400ba14a8cb30b02c7de56f4b19ffe9f0eb3d0bdcabd004fcd02040d26, 0xdc083ff569c15fc9859fc38855c17dcab34cab81a4ab80915a3ba52280f1a9, 0x344d0792a581d9efc1676881e3779bf0cf3c406d0d8252040afdf551f49fcd79), (0xe4b4e10b34cd4583de7d8d463ab2f9e0135516ea2360f2c1400751f9bd37e21, 0x17bcc2d5530a5b2285b0d2a5cfc99706638ae742eb1c85c620746d3a5ed6cc07, 0x1cbb9b3f71b1e807fe6cc77500184f3565ae8e7bdeb5b49c69bd76c0f75548fd)]),
  (71715, [(0x3959635fe2393dc1b12ec306b1aca45a80574b74b7e46f39b893e430eba317a, 0x336a23dad134aaf3431cc153d64e83e495e0d4291c2f17cfdeb2bd1fb90ce8f2, 0x19d175160c86f32ea2121da900d10047176b4aa1c77f26c12fa3f2cf22d4b069), (0x1403357af15782056803f88e6727b01e7e96085e214655539845a6da5f477cc5, 0x3bb0a00871d998e8dbf9e248ed2e490cab4adbe411dad42728f51d2019416d60, 0x2a43a1d299f36cc86279543eb7a3d3677b9bb1fc3b6f8be20d22d0533e21bd71), (0x124b8e410673f2faf5571a333f187a5b523fc93b299ea38e06b3369efca7d885, 0x1dbe6844b14b01e0760645b25086ad0b4123d3b62cc01c8f43b032f0e1f35900, 0x1330b66925bffaa20660fe4577cdd411dac26f4f334c3987d156bbf9bc25fc71), (0x2e7c088b7dba7901e87ccda42d439c5b8ebcd9a7f414400a1e702eb592060135, 0xf6f1f5fb83781e9f687de2e0b2df27d437f9b80b239fdda3b406b031da296d6, 0xbfc00911f4c906599d56e23cfb317a09db94d5033ff82b18a7edd4b8b075c17), (0x3bb2a76ff2ab88eec1b4d2946a024ff69571620c9ae95a8149e8a12f27d1aaad, 0x30f00f4cb6e2498478573927aa4cbfdd2d8166ccc18cf8c8ab3b1ec48fc59ce7, 0x2bda6a779c1180738bc5948323517b177eea33ee8890df33bd797988856cbead), (0xab3ad60d4c1279a286df222c948b9d6f582264600f1e3f0bd47cde58caf1df7, 0x250d95a21c6246264eb4be0cd9fca870dd35bcde652b512eeb09bbf2497f4c13, 0x222cf622b9c0fd2d3ff95ae6c5e3d4ecd1ac749e8bfd698471a75afa4e1ff80c), (0x23f8feffc8f3542b3ebba7c9fab498e4212c88b6c63461cfc48beeb41c2e56b6, 0x2c1d2f64b721aaeadfe7e84b146dcb544baccae163ff80013dc6c5444842d921, 0x1ccac7dd6fdb25edc11ab37fde660824900564d707e71b625e31b3f0ae2ec7de), (0x820100b31053818b5cc726fa6c9817707fe97c74a7945885a1b1585d7fff7a3, 0x1b0c61cabb38f50a98d0c3f2ffb55666c9b381be79d88d5bbc9e0983e2760deb, 0x2d5e33c779f769fbb9791e572334fa3a81bafaf515fd0669a44f71ca1fe95d14)]),
  (72411, [(0x28c82b5d9111e0ad77369dcadb243ae7b9d27348ccf3c681b1de635b46944452, 0x32c59c8723139415dcf32211c6e8c6f0ba7851ee107095cc29953b9c4827313c, 0x2c18b365e8f1eea8d79af724f724ef1e8c627fdd0dbbed4e34223630459a1411), (0x34fa7dc58546006da6ed9d14b5683bcc02f13605f96879d805e0f2eb11ec47b5, 0x1fdd0b078b5eda5ffc35d74672664f17e724cd04f735a79afbe325f1359a43e4, 0x6bf524a0489606f7d9f9613cd0851a59a1619259305e9cf91904b3f504a6986), (0x1f28af228f130c497dfd82f0e9a47667bfa3a1a7ed9be1f6c4e06058e623d214, 0x31125f5bf236ad48b465774559cff11b211d78728b634d62dc5a4af2a03f191f, 0x1d7d75a0ca39f6efb5c68de19a4bc9a806a758dcb230add256d984651a158194), (0x3827c71d0d0835c015937d3f8c54f56589adc867cb9bf774b8b42bffaef24860, 0x2f6697a24140a8fab75cca18b5467739e214dd50756795a239a7ad1b93ec47fb, 0x4bc40f2484e5a5496d80aebc1328f96e03fdb0215951c68df15bfb1c1b1f5a5), (0x223801df21764032c20d6927b6229c7d647e349a99229082034150ee1a503493, 0x3f31de4d91be8711ae4faadd72adf8687b8ece66e243207bb4743d308234c22d, 0x328b87aab6e7d9d3964d9ae9ba04ec514100d657469bb9cd83bd998870793ba5), (0x92d1818f965bd48d3acd59af1715b6712d610ae89baf1b3a532e989c0c9f723, 0x1d3ad3e8e419a859e06474e9830951b299f72340d666f962902f9512f4bb7fc3, 0x3637053474710fdd47b54b1c15221aecd34323e841d3e9ecb40afa809a503940), (0x2358a15a5cb2ca3b41afb49ec3deb5e4717e7e30ced5bf0c81a12cc8d271f9b9, 0x3d6df86390b1ab26a2d9770692ede1eb7a22c19396e647050d6ccf9b39781a08, 0x241a45b69a30770eecfebbf9cb83efa3fde87b86c5c33d0f2a28c6b27936d617), (0xcd51ad02c1390935e9ebcc7ffd954aa23513af759d07f13b55f1e3894c98919, 0x1e2d058c033e526456c9d1439c8e2cb75d808b57e4d922293dd61af57198a408, 0x49033bf53ad3ba3d0d5e270dfa07e855f3b56d03821c807c30b5ab086117986)]),
  (81323, [(0xf8f507d03a3c83dee6b35d3274e32315f6a1101f01b5530e885974cc1994bfa, 0x12f6c18a93089cd3106eae6b73cfeb07c60f512a1c21fb281ee4a393dd137991, 0x35b99a3975b0e8ca414e8f4c21099d716c35831d7c587e94b426868d969f506f), (0x30735d9c03c29d22ea4a230b8e161ee9570514e8a637bb16719a8e41c2778480, 0x1582440189f880a42afd77f738a152dc5870ec7ee4eadd11393195fab65a0d83, 0x3e88944e4a29c0dc07334dc49ff7336da718ba42756281949f8ab749e294f593), (0x3a5661498701c8fda1d2a559b9ff33b553176e5ab943cc111188505770ad1ed0, 0xedc103e1fbc83b9c2e56cbf56e33085e445120dd6983cbabcc2f2fc6ea2ca3c, 0x25b55423cec0fe013730a6db302f947758dcb9dbdd8ce8b3b29499a7d3a5031f), (0x1b466f05a7242bc3a26ab06b387ceaeab1dd0761ad0114a87de3334c039db9dd, 0x39202e40477d4a780a5c546b34f2f357e405e9bc55061addd5a8b55002e9ff32, 0x37114a324fa3fcb9c9340f7fb53381c7b35f7d817a2263f07ead16a7ad3bcb49), (0x2e7869dd61cd14424c2e043f0d824094d2fd17ee07567e72edbd42f846c735d8, 0x1630903072a1656a2ffba8a1e3a0b91a63c9762997bdf9a11390f7b90c4d98d3, 0x39a362310851ea3db1239bd7602c2eef4517cdb375ab9397a64db2d153466c14), (0x310303071a65593e6581cf52388ea203dea32ea08d7322887e05c3d7149e8704, 0x8f9971559add48d510bc8c2a8fc4ce5af835d969a849811266403c336416cf8, 0x2f373530da519644559a836e0c1a5791d2d446e3783f94c8d309dde0ba0eb38f), (0x1ef6020b4fcc34e82fa94efc4cbc296847c275f04a18dd3f076bdeefb16d91e8, 0x371638f193a91a03ff57feea5a5883a025c63244ae29eb7f4c46c7efe9f2c5da, 0x2189f7b1982b512b518c4a7b6d5c0e7bde6d32e11e4f32cdd76b65cca36fd22f), (0x314ef230606cc21497c86bb24d0cab77cb4df8a0a82d189487694ab0bf6b5de7, 0x3d9ecc3dbe12f48630806883018a4d5fe2b254bc1c18f50bdc212a2ccc36b72a, 0x134c40d98c4721e01ffe13b982007d77e18ff384d66c8ac8601912ddb6932d64)]),
  (42306, [(0x35fb5064c1dbf0fa3c81ac263e078d0e75793c2f0e460c79a784b0109fdc161e, 0x899da8f2b32fd08986a4d3002a16e7ff3bea4fd342df277ea95ef4bc1b6fe99, 0x35aa4d08af840e3c68f290e089a0fd7db585f633a8715757b9600dffc2520445), (0x1ecd1ea36a501c00f0df4330a92e2bb98e3a5d6ccd9eee0910be45e2ce2391f4, 0x10fc6d2dd6b5f8e7233ee2744b1acd481e73b965a491567115f97e99be1c7971, 0x184f839664d112cadc9ab75dabcdd49841113c738d6834c9440bf74d2043456f), (0x130952bbd3248496af3e964457dda7c950c976365b145db2c28fbbe46beab406, 0x22e4d119959d444ecd6c4b02abf27ec3655828bf320a75cb019d668ac0a75885, 0x1a3a3d101dbc2d437e7ee11aaa895a2608e0c2a18c9ea0c0734ff0ab35afc5cd), (0x17f5e3aa6889327f4414f663a974b0e0431ae36c611d196422f838ff5d503f29, 0x14558080650a9f40edb0c3be7de42e90a6906780b52a3edbaf9cabc2a3004658, 0x252c713625e9d346df4098d8bab9ec57242b017970c952d9deb0c33528d64926), (0x3447d2f5299b3291fed3766a13c60dce5dffb3cf141ff69c68abd2120a4275f5, 0xbb575122bc2430f90d2fae396dc139a4bb8eb035fb95ffdc8fc6030a58dfb06, 0x17ed1a99b18937e4d1594bc0aab39198b173db1f3845997313ef6c2bcc56b1b9), (0x8f50c9af67391a523110b7ef3976310ea7d027c7937f9c5982e7c749049ab36, 0x3e557b356c08a658df5efc398d72317840989538edb911ae7e21dbce72be2286, 0x59fbc0eabf5e2be1f32b30baad8cc0becbcc75d742265d93538f2aa8989e8fb), (0x28bbc8af20ea27cbc4ed4ff0dc331ebbc92c183093d1751c17c44462584dc67, 0xf1c715b3947137524b893cd16580fe23c40804f88cdedb097cdf877da8a166f, 0x2624d47709b6b7852ef0650a75e431b802c349e1ca75c18b4c51ab23ed408a5c), (0x22880e56422fea11a631355ccb5ff28ba8f9edd59cb9a30c16f2fb4ee0d49dc7, 0x23cf33efbcead2f807afc38541371d8444a331a537df9ab0e623b4ec6ccd1a07, 0x1e7566732a54b1f3ac2cc2ff5d5dded3a7ef67633f44156abc2ff09bb435925a)]),
  (170594, [(0x1d46588618dd0f1332bc6a096ef6647386de899a13088ba28fe738e3bfdf1e0, 0x1f9f2c9906f41e0927edb6c07c91e958a5466d04204e637039ac88780187c3bd, 0x1f557ffee7b3c21a8353f0a303cc74f695248dda4e29e49c560b917e7861e240), (0x2cca97595e8e24127fab1b86a0f8399ad88bc71b3796fffe44d61c77032a11c3, 0xc60199c88bfbb4e1fb6ded873184f083fbfeccd30111c5b5d6c3ac856c60d94, 0xc81ab87f93cd1399d397d53d99fca582ee8ed023749a602e49c805cec248dce), (0x197c3d4e654df01f5a6f698352e8f01924a10974aadea8a3cf47e0a4cdaf8873, 0x1644f4f0090ed6acc48c8b8402fb3c62f772aac3808735379bf0f69e52fc605f, 0x1a6b71fec079fdd9213086f3f7852c34b345631e3738220b74499d89a4e9749a), (0x36a97cc576aea1b90f93a71734b43b2f9b71ae237e95c7ac7e60737d352c6bcd, 0x193612f78674b2409729be5e7b11d9e3fff07f15f620df3e7cf33b56fa4ef9b, 0x1488e05638fb4716be04deafa1000ac4044c49b4dc633b091180b38a14b9ea41), (0x1ad704ef48414c1143c4dabe4ead2d515b9749e6aeea1b56b3267f0bf75eecda, 0x31211113966a7bf06d946115db971e6d661951608d95ea3ba313543f8e636dac, 0x1eaabff5fa264ecbb91c83fe173c6dd49e641a02cdcc0e784fbf50c3c074f7bc), (0x3a6d67fdf4a7b09949e12bc976b052036402706b1820c8ed0d48b442408180b2, 0x387f1607b205c77ea3af35c9271cf491e60845ad88f2ac2319d4d6fe4a8d436c, 0x1049fe060d8c8a5861481c5f4eae5df3d804ae88eac1addcbadd5f92c37d0435), (0x14ea947cb5bf1a5fc9bdb250d63c13ce2acdd0382f21be9767996531559ccb70, 0x5f755a39e26b23e0774cafb67a907164128b1dd6219703b38342adfa4c7182, 0x3c24f8226a2abeb01aed37025f4c26e5b54ecf5b56f28746b0ba37a60929baed), (0x171a982c80abd80832e33ee560d9c144077532aaa40ca2f33b94d9d8d300f43b, 0xdd90e948199679b3be15618f538e0442f8cb725f4757f5b9fc441c7607c2c47, 0x3d1d5f314e7b54a72794a457bf6327e0de01cca9ee44b0879f9e4a025c32c212)]),
  (153399, [(0x21335f7d664d3fdbd9c75312e1cc4f6d1d4a1fa1408a28dfa3a4dab46f8049d5, 0x277a5e4aa04c5c2f47df1be3a7853470ee225f4b6aa0a22941df96fb172b0a19, 0x1d01b63ffcc082d180208b317bbe158d8cc241092d3ba184b43722849d6737a6), (0x3ae74cfa10575b3b08797d48f053b24321bb0a55245e0952820a9cfcaec478a, 0x27efb445bc53b4fef50a0ec7215d4032f458e2e1e18ebd72771a9d718ac2a9f7, 0x2ef3c0ff730cf990459a5276f9b63c5f58bd646330f202ea97ee84ea48c3d275), (0x1ef552a5563e0067b1cdcfb5b51b6356cba2defcc611f6e66ac1d9078f8ce4c3, 0x1af448b6f733ee02a2cee31b765cfbed7585702e6e4105774aae269ccfd2079, 0x1485409449831ec0091742510130093e0dbc4f77a3185583ccfb76781b083019), (0xf37041134966739f30f2bde09b93c17973df82d1d14164bff3781969e1fdbdd, 0x4c7567e059c825784dc262de73476d2bdf5d4c1db802b6f825f4b6861191f37, 0x1a937239b3056fb6ce055dedca483d3857718d3a18b324687daeab5074df33d), (0xca09bbf871ffe43e3119a536145ee1d38741bea82b0d64032a9336ccaa9c6ee, 0x109d1516c0c85ba0328023f920cb44f13aa4a41aa6e34b1b7226889da3fb04ca, 0x27b7a279fada9967308733344eb7b97dd938851b06f3879ee0dfe5ea8a360fc6), (0xd4fc6c697d9e658fa2f778889856032af1d97931ce835f70caa28609fc83f42, 0x18971ce07f36dc623e9db2804b045f711bbae868b26278fcbefef1f1707f4e5d, 0x23491f52f95b8dd9d48fb4eea5e3388dd1524078dbac810cd5a953df962ab85f), (0x3cc8d835f9597d7b0c0e583798dd8e5e71075b0c2f1cee02b51c18ed5ad439ba, 0x2a1dc8ee9c03705d8d1ac7757c602d1cc6281ebd865fbee489a51d503230f07a, 0x269c9087bd21ccf48c08efd5e906b4da9e58e0d1ff44431e9bcbb651c6541368), (0x208f724ad4b07b1f36ec661387fe005c6c36a64bb266f625ba4afabf006cceb, 0x2a2fb905d7f28bc10aedda986c4c5e032598bca258cadc9eaf90c64b3e8c762, 0x2f119f56e123a035fb10b193f68eb48b0a4ddfda8f2b5b235262d5f26874a151)]),
  (123967, [(0x3bd3d42450e89e52078b029c8d1d6869ada42e72451091dad3f403103098377a, 0x3bdfcbe0e995898650d7fe1091fde181c376e3a1744cbcacf866efdfe216e9eb, 0x12c56ca25c48422e482e17103973e2006cb6f00f191feb1543fef26f557100fb), (0x138359f6824ae58a0bf30abb2862d59de86b890613f0821b053abdcafbc1ca56, 0x1c42e8d0e17a426226a158056cb5f3e69d80c7512a6da088d09f9aa8ac96ee2d, 0x607e98b64aa47dc068b8a81d6b005f439f1c48fac7a82639e84fec05af8b00b), (0x317643e40593dfc3591a4b56154df4cdb5b6adf16fd5e7e76b69160ca6b12eb7, 0x2b83b81bf60916873653d5b7415b0a12cc549734352345d394da84adc3d74134, 0x2ecfc95cc80d861d10468c8a24775bcdcfc5308b150834c9eeed46cf967938f2), (0x3cf4a7f54c013bd255f2fce46ebc1d3923444a71633b2f7030a38f4d79427763, 0x1725d98a06b1d9685cc48185946db35056d362ff8c844bc3e30acb1c08619bd9, 0x373d7fc75754105039407fabf81ce553669c32fbf9287fb5d776e28f5a883344), (0x32be2e599807e7141729cfba0db9f538136000e7948e7fce16d519d721b41294, 0x26de8faafc97c45cd75a12a3b15242496f38aa9bca812516a6057782ed014027, 0xe68ea6986894f73399c5ad1869f48428477dfc42832c89205df7da828d6cec0), (0x3e8a5d872d6ecc77c067c9e17d850302aaa8c423c466929104b2bf83d0368ef8, 0x3e7c715cfe995dddc9dc55bfcee7ca90cfb5bb2e26450698ffdb78db6d4373bf, 0x2851655f5d7974664ebc58e2a11a4018aab54dd19b6e70bb73cef1ca12c4e951), (0x341588c87e47ad03355cb529d2597d966b9e2831f6e6271cfcef98f126497c94, 0x3b6b54a9312f35f57fd3371d4da3fb2b29a1ca995f93bcb044d6b6003b989f2b, 0x1b8f13e6c7ce08c3196eda336bb49a93f224942c9cd3d3227afdbe546194b909), (0x24ba382e3d417c9b270ba528d55208ca1c8810452da5a5dad4bbd9ccc6d120e, 0x3cc4095a0ed6a84f9b1109386f86f31a93643414c162a88a44d39911c3dddbdf, 0x10ba7ab3106ce2fe1225a1d06fa636db5104cadbd9887f1867da6030a930f29c)]),
  (45210, [(0x37c04b0e8b2fb5fe57240e3a1d1d7f804607f3ae1297830268a2fe3b5253c298, 0x20e43ad780254f55cb5c85c6d9bd3246c79bb2ffe60c5da5149471dd34c439c2, 0x17a0743166a00ca51c5543cd6095df573395d9b5df5a74ae1f288b3f4c248590), (0x24c80eca80a7035e487a3ae45ef94d8eb11adcbeb6e8869485538f6537b2384, 0x32391430b827ca8329f20a16abfb98e0a2c5eafa99028797f88f78d4b009d35d, 0x18737df8d74a78aeb3f9f7cfbe07479b19abb545f383d1826652582f14143ab4), (0xa5ff4ce9ce51af21e562d49218e7c992d2153928a99d4e57dad25b84f6dfdf2, 0x3fd67337acffe1bd5a1a31779cd269e42cc3843108f69235f9ab5b33dc194078, 0x2c64187adeedb69a0beb8236aa2694a6f48d6befa9f7828e9df8beb614c754d9), (0x3ff7e4ac6a2b36d45ff5bb14a0d90c7af45b1133b26a111e4a6cbe63a7f5f94d, 0x1db7dbbf5ee14388b9a3b84aba288495ca6f266e853a7ddb5c4527bbe419fa88, 0x3374d1ac4384c742842bfa9dea9593232e8a611354ae275f448c7aa37a872606), (0x17f34f647a0a6c543f4633c3c3288f3c02631d3f7c65441112d5e833b531882e, 0xefa5717160194cc1a4f97e8fefc024480d9f33165f15ef382bc5b361fc19515, 0x223ed8274d9ca7e9cf2dc30b84b5be81eb6d9fe83b6cde847ef57c25bb6390b5), (0x24da738dec9671135497671587af6a911338d8c9f7fa0bbd8e27ed0a9a1a9a01, 0x12ed749b43b782ce6a68ee1ff0b84d7e7b818068a3ad786e146e596fead2bf1a, 0x2a9164e443976b515116137a17df481aece11b62e62c0fa97f1aa398cbd7332a), (0x312f71a93850318356540c97e275cd49534836983f01608ffbff006dc6c08925, 0x271f52b9ea597de5ed4061648aeb2b15ade89a1cfc142a1523cf7d245217ace3, 0x21b0a38b8955cd784a0b89c461e6c119e54a9a9c7e2840f9bcd981bbdd603f70), (0x1e3b53ed99bd95ffb93110bd627ec47657ce7f8fc41d029914e9e2f01018a4f6, 0xe175143285d85254b5337ee48516ad6a9ca9d1b6c418fca257786bb93544257, 0x1a31bf0098930544ef689e2511822b712315e7e5664cb9d9b8529a3908c70fd)])]

def windowRows2 : List WindowRow := [
  (33828, [(0x12eb20c0f1e3b41075d11e1377733bdaf59aec6f02287f6f6c3a1792f5893616, 0x1f74cf1134498e469238df1707948656d9cffa48948b4f14bd6bdf1eef373cbb, 0x21e1c54a11d2f3b604f66b8d1f4ec00317622b28e6afe21116084e50831ac91f), (0x2b93a7c78f2a729bf08ee2e13f0172507f5e7b9346005dc4d3a49d2b2606cc91, 0x22439a9463aae937d56d1d3b90fd709f0c5a6fc4634734a6adeda2115b5b076c, 0x3ab0aa55e8bb114afd77cf72a6b8616b3a9c7c02378b07e8d1a32fc83034b6df), (0x33cf0e04587828e6df9b9733710ff973795e2d3e2acba9c9601393cce6ebf16d, 0x278d41ccb33140adfcf1b9e70db46e42b3cea7882b5b1b4622c42f92ebf16203, 0x3c1a5bcc5329943797ead34a0e03e9d6f2698da182bf1f9a7bb9d6d8b37463bc), (0x37813ce7358403030af898c5f79bef6035aba497135a96f697de54002ce17c6, 0x30f269d7ff90c3cf13a9ec508a0fd741652d0f86b0c5ae38646b9919e052a8f0, 0xcaff7fadfac390866763d505b29418e5e0e3ccef3e0d837e0e150a96a6cf57e), (0xeadb0e6cc57d17bb0907aee038b2290b784d406712ad1fda0cd9f49efc37384, 0xc6b69b29b5d8b368af4311d88eef8cc7cc95ecebb7042bc5c879c357d27e409, 0x390195485663c32ad9cc6e75783b41c577d4d21f05c1397f60ccf1ae819b41c), (0x3109155e990306c89fccbf67064e224e1aced5560e6b7ec4bde980f82e8de2e1, 0x38b0e10c8fb9b60fac6a8237c2a653baca576e68c71606e0680421a3ec87fa98, 0x3f518490442b241276acc0092c0a496cedb901a091aa0444f543e771adb0494a), (0x12da4ecf402a4b01ac1590d96139b46f7222ea91e0eaf75baf0ed59271b3a065, 0x35f195739443e600f042ebd504315b17697c3b6867cb9846ebe4682eaf7580e6, 0x1d75546954d73fcfe320818ff496c57735e105725c2a661686a5d6484eb2c729), (0x33dd99eea3ca2f24092b7514025fa799ed83e813fba0e45f5a05169a7a6e0132, 0x1ab21d65c761ad44a0cbde205db03afe61bb4d69ed5783a7895d551699077a43, 0x899a12117207c098eb28626b842f5d054850518325771794c6248e3a8a670f4)]),
  (35916, [(0x1c621dd39f4ef56e83d007dbbeab64589cc61bf7befdbea26a8fcf621dfb0209, 0x327594d09e3c9f3beecf2704b7017122a5e9b000e988250f4d0185d71e76987c, 0x532b7a7fda51cd8e11a8e1cef6c46fa4377d5fae8283671c749b85b655310a8), (0x832f251b27878397d1961e4475f9c40f2aae7d014877156d05a778b90d09805, 0x21bf92e6b2e8cde98a6229786a3630892ff493c6e7d71c8d349cfb57b600c423, 0x396e15fbf0d257924fcc21d639fa59a2278613d9be804c6cd2b2a8cf849a3cb7), (0x19b8a35aefdf46c1a8f306a9f1f400bac778f754916b7e503d33c862bd1e40c6, 0xb3c04d56d980b645a9fa0e27ffc67e75b13b7166925f06ea09aa58273e0b914, 0x15a759181863185e69c2339f40589c6e16a9fda9f5ae0ff194a09aac39b0077f), (0x26c2463d6ecc5e996fbfd0070e783416a7001afce3f72b30af454f6a1d94bc50, 0x36c24033781324e3f77cee590bd75e2c6dafc9f625731f22d38018c13f695a5d, 0x20ab169f20cb636d26c5ba37428b5e893e4a105b1509db7db95c67832c6dcca0), (0x2c30d3d60bd92855756e52ebeb5d613a4f430da6837c04ec64b33879a3c1088c, 0x18fc362b2e9ed7d8b2fa021dc54501d800bbe8bf94fb203a5766463f7ff9d1e2, 0x12ed461fef2289f7d984adc0ce398a3b3f608e368c63eaeedc31ab615f51d8eb), (0x1ef35bb41e5212ab32311a1c98de431feae7ace61075adae96ad95a6c1b5525f, 0x29bd72d55a3aa09da10bd2e52386394b71288734c74b29d017b62b953a92473d, 0x1d671ac98e326fb518310f3f3bfc522d8dc6473ad378305c0f1e6c8b1f96afe5), (0x2c28c6566def7e48e835f41784f4d8751b94088bb4e40299c7fc61454926133, 0xc23510da4abd70f6d8c98b6bbf8b757da218cb850e42113c1c39f0e1707e411, 0x17cc9572ebf7527fc7963c9031595bc8c9c8f8607ebd7726772725bafed3ccc5), (0x1831ee1ae8f2a9b03165903fe61e0e2968b4170f9725a1eca7a9a7f6649743ab, 0x4da8ad9be004901c21ebf6136f49728ea69775936599b29de73575ae36c36fb, 0x3432d2408ad04153e91ebc405c24a4f72fc4f564fdbaf7da6820ee166a38fe31)]),
  (41584, [(0x34fd371d45e30d694e9aceb9895b4f954422a96fe87388e6870c89e882f2043f, 0x32f90ede09e21322ffe53d6e7ef28c81c6461d48f5356ac12e0d9983582c331b, 0x11f50f185ea8d50bcc37ce2f102dec924196779ba595f5221d27c48aae24b99f), (0x191d0c07cfaf51dd1fa529a525d57126dcbd3872394d0e6fed427cedfc645d7e, 0x2a03afaa8c778c13eeff389a0a53615a58115663206a68cbe7ceb0beb7ed848d, 0x28b9a77cd35f655d015d19d7b0eb89807f2ac8208227872c78d6b8783babbed5), (0x3805525b1aa97a81c310e373ff2c35c2a9ed24a379606ae0a1feece7efea086d, 0x354020fe3b9ca92173602d4df0d15a3c54dafee675f25d5c4a2e9cde78a7e56a, 0x10c3037d48557c6143e601965c50913867147eb147aca082a524482f01ed7c8e), (0x166c04599d0e7976666b3f445f56a15e5c42d6e325023e4d6db349770547f7d4, 0x1b84a4acd6b3bf253ae63e886874ea7f0b3453659e26757eda3abc82565018b7, 0x3554dbbe25e9abaab883ceebb87fe57e121b26d8bc4022de029e97fc9b02e065), (0x36561dc4ff22b75e8857b60b76212ffbbf99fbb13c25d726f6852959a728e224, 0x1a16e85c520037c638fcfa33ff6d0b46e1c7f80c37be0ed2cc018bb8639543bc, 0x302a5654b360416a54560a58748cb05dd821dc6e3421e39b1dd88abc9434fc63), (0x217fb242b1275edf7b559897ea66bbdd393d508bb4d98c327927548f9f69fd1b, 0x22b4df59a50e178383f64fbe9d7738c796d125dfff0673da77cd1158ea857791, 0x130b5dfec2c01d2643189ee3c2c0b55fb0546e4d32c1e99431925e3469d03482), (0x1eac995d37c67f8943dfab6e8c6c86f16c736aa076b34d36e4e1bed4f9e27953, 0x34726f1dbbae37e817393968e18a88a4571eb4d15b290a32f6d2a5ba33a3b0f4, 0x21093d440eca8b29ea90949d4b37b8a6372894ca5fd0361b9d6faa88bb202a8a), (0x3af9caca63dc0e4494646870ae72661582d850ca21cb43fc52e09d9736febe5a, 0x22fd9ec43d805af6a6a1d8e50be56e01704bdcb559836c30474eb157821d3454, 0xc2e7565a257f0f549f17f063c89af79bff66c055c241fb7a7d80eb1f69ce294)]),
  (6170, [(0x178d4fae174ad48898b0d06e098e5cb68a4e935c651471f7c0ff7205953046cf, 0x29dd24ddbfaba1c65bd6dd06ce01b7ef0646e4b50fdf9694f3a938cff28daa38, 0x1532a90869110126292768b184f99d792d8fa665095e154961acbfb969c7b37a), (0x10310e0c19f0b20d81b9e91532f8452057321fe1dd06cfde43e0542c2ad54909, 0x2928696ba4f8dc1e21c5df3cc0c666609835e2637e6a7983ab2ef6c7e65dac2c, 0x314ff9b751a140b0e0d876864577bbcded527920c1e7ca1694e3d2dfcd01a2c9), (0x38e4dc0137a00a26fa1e69025cbc72a2aa588e4be01ca99ddcb52bc26c3fd7f6, 0x18c51ceed24bfb619b4cbedd2c034760b68bb3bab9cefa216b422ed641a8f289, 0x21a006d6d4418cf7f22cff1be39896901036119b3c0ed500555f124df626b18e), (0x3c62354b37bb1856ae1f7cb6aa81158b7965069d2bb312a0ea33618a16b13380, 0x1971dc37b58813e84fc831e190a60434bcd81f087bb1d17b0c069e6df1ca4ba5, 0x2ec91ac95412cc2c6e49d37bc4954d685c24495aef685b920e598ce554120ae), (0x37db22e4fa635c04ce0f4edaaf2af0a44409e94998530accce2b9d85bd1a646d, 0x1df590c683a7b81b40c455ed39da0781ab076e2999edcb001a9ddd2344f282ae, 0x137d32076781f99657471a9e90506ea596496cbfbf87afb02ebe65d17e87c13e), (0x271ac32ebb5e2d7a71786c31b8a1377cfb2276894ec53a2f8b9612b5a4bb554b, 0x1220f1453eb449e1624159947be85685469062fbd7dfe56e06fef315fdb4816a, 0x2e9ca6116748b854bd446abefc23ff06be692cc0b0614e4956e75d59fe62bba4), (0x3e14e44cb836d086ba1a7f772eb54266a09b445dfc45b978f94b227b3ac4ae07, 0x34b741ce4768b932a8d327031fac1c7d343103d119d2ba34016a579dafdc3c51, 0x3d7879b9ce4e067e501bde9daccb220e25c705a58d538c694a2fadc6041e73a9), (0x18873b45d0f367ea187764eb652ad3aa6d1a8c18d0d5173dc852affa9541ddc5, 0x16d5655519bfafcc0bf637104d9d48457b3de0f02a12662a84fc1b200698e7e4, 0x1407ffb2aade361aa6be86ca61c49d1b2a76c3b4e036518504fb26b6ee19aec1)]),
  (11193, [(0x3e29e02db7acf0b38b362ed996a8fbb0aa2c59b5ee61aebc7d4619e3443d8047, 0x4b107404f322a51d13076a54c263ebe228d565439c0608c8c78b261c1d701c8, 0x3e115e3cf818f574faeab48402cc580caeeec78d82b06c4a17d9788e4eaa83b4), (0x303c1d0e59f86d7599f565cdf43f82c2b6f36311bcd8626bc3d0c150458ea649, 0x348d008feb155ceb06b2ced820996bfc1da170d8f484987f807d9f890fc499a, 0x11efdd95f0008a907494dc04dccb9f278564844d01c17e8a2c4248147fc94221), (0x2e5dbc4812d53fbbedb1500f9e579a534fcf7dd5702946c7c137ec6b998aee8d, 0x13944f1f5204eec9fab367db461c8ce696ba0662fc4675959352950873d1a583, 0x1fd87b96d9b6f4a4ae55a6f7726413e4e524c5ece40ecfc3adb28fc2e4235513), (0x351b95363e3509bbb64a2735759c0bfcdf84b1d582f5d17fe2263621b88d7cdd, 0x7c0e5ceb93e44bcb7fe2a6d29ecc7ca44a0c2ac0d52a564ae0d7f1a9d7dd9a2, 0x3fe705aaf2bef0cf583b46f5045434efe0df5355ffd855e32698be1e5d07c1a8), (0x9044ce766a61e941e97e2c5228ec5c49c93277fd413c5a26fea31e2ac521e0a, 0x252a001fe76977d57d7aa82fca48f252e3ae3ba71d56f278660d8cbee7d3f65b, 0x11271912e6afa421ac69ab42d549bff6bb72169a0719efe2cb88b65b8fd96d23), (0x1fdfa938b3b853d20d9e8beaaa637279443dc77d733da76082b30b417fa475be, 0x315b7f694e74d14a8ac16faa5dbae521b828272b7903cc05a26393af8a2e99d2, 0xf56704107f5672e88757b5eec14b0b4898c7f8fe3cb2b37809b115909d05242), (0x1cca1e2228ec1bcc4dff785ce3babfa62e9defcbf522d8283b36aaa98679ce1c, 0x3d4b8967d9e3f6e21806b1a5efeeccc76150fad570c9d29c90ddeba5a74bfed7, 0x27cc7fb058a0335f897ddc22d2b8e1b8b7b2bdea568dfeb8e4bbecc0ed24c0d2), (0x30568a323f0c40fe8f5c7ab0b836a9afa8bb80c6770f98275ae3b9a0352331ca, 0x32d6ee1e755dcb8919587198c8f5372109606cc1e25efd73293be48a4ddc682c, 0x274a13dec6c633008fb5bfe841c5f914b2a5c19ae077931a96c0e89deba7e447)]),
  (33522, [(0x919988ed62b9758051278a783035cdd1ddb3dae2752ebbaff3ffb6493e67ef, 0x454f4f83c47723a51f36125249958619f63f688e6db24e6db1e7dff6dc46463, 0x42c7cf676ccd8bce414f85d1fa359f14d26f1c74352a7fee2167dcb17de3deb), (0xa5d945ce13d14fd0a86425a064efdb0a54608e1c9e170fbaaad09e940934d0b, 0x3b45f7b037454beb6ba97290f2455aef1f536b7df7b06a59774cf7078232418d, 0x8d7c28a49d24d0bbf35c6604665e9f3a6c686363e1bb68daf3962e85392d4ad), (0x1d96f2353d165ef480592df096702b7ed66e90067646cfb82f3bc0e8b3e0ee9a, 0x2c85a8790fdfa77fce40cc71848aea43e863c9a4f3d91373f2cc1aca1dca6e2f, 0x242177f8cd023d8adcd3cfdda8c8dfb785dcceb51a1dfe6d13f5f981781c2fb2), (0x3addbe6bd21ad17366ab7a09b2604e1a54b15530431eed732cfb1bbccddc7ab1, 0xd34c2a20b3f4025656d02a16052522ed7b4546416970ea8a15767c4b73f0f06, 0x2f0181957cd7991cac66cad468974ba37e2645c85ee081fee982ed192e798813), (0x170312bab6d6a082939d9d7dc5f8947839357c5f5e50466a3c3f82be8c1ebc38, 0x23432afb841248183f30b3f69584ecec7320b75acf39a5ea4c4a17dc7a22f40d, 0x37a8578aeaf06756c2c778847546085cf0e8b5b8d2fd5d9aa21ef63cea740b10), (0xf88d668919187b279024627558a27b1fdac6303fd6eaefba731be3acf9fcaca, 0x11a113bc5c6e9bebec4ec2fc66e5d6d8c8c9d35b9a32a23ec53611616f944206, 0x244dde76218573b080fabd50608f2fe082f9fae80c99e03ae85c6643c01bc3c6), (0x399b891d77866fc3e2405d396eaebcfff19f307ec57175a89ca5885041b2b775, 0x351866a578570058bba1d73cce56efa37b490a1e3ddf3a3ffeb0fef96846c0d6, 0xa8a40d3db54154f43f0c5a2c2bff2a48aee907e9e262f2313a42250986990c2), (0x5e08a7513ce78a95ed30ee04056a6ca7a90788a21b8203ad3f3e2d602cf1aea, 0x3ee0e83207e81cc095a6f2bf144bd663c818db09d50b431cfa28e93eeac28c34, 0x23b729e22feca9ff97477674e4472989bcc97ff2aafba66334b605e046feee69)]),
  (172258, [(0x2117e401d3e13bac36cf67ba4c5e4087dcdb1a432d2a3c730bfc42a22713a394, 0x3db650651c48c6a08e7b328c54c0797642080292d854bf2a1ef04c434d029629, 0x310f36200a90ed079b7e64aa65018522cb2f085b2f0e5393ea8827505173762a), (0x75a58a8d2a7ad5ed1991883e82d64ebed4bce0c118178b18ce6bbd8026347ce, 0x3050d853d42248b64ab75dc0e95cbee66b8e116fd7ab12eeeb13f8fc2b6eeeb2, 0x34c5a12487bc77c7b969f7b50c3d5074421a5e7cdf2e5d2182aae280dfb4273b), (0x2dc9a5a820a261810abd458dff96f13c4daad3c1b5b445e601db53a8fa20b6ff, 0x3e822253b9986c9e91089227583eb42474255752bbe460f32fad71c195bbf5fa, 0x1413e434fe4562e87a7eff97d5f3d80d6ca877757e427c312ac2748f39a0c449), (0x12ad9cb0a08ed497f8997dc627c0abb51323d78d8614476bb22255fb906aed76, 0x26a18e50124f8fb8e31403362626f424e12df739100e247bbba82722667f57ab, 0x3fd4477be663f2d697103472b18261b12d8bde6f962f516a9fa86b67b85710f4), (0x12dc573f0f37cd717d42c6402be7eaf13d5d0d72330b1fc26d67f35dd0b3cd50, 0x47e881681293a9f2c452789bb64e30d59f2ec945e74783f8659e3b05de2d540, 0x3c699fc54c7e7a3d5701b57e0ade35f80ea756e026ad2509dac3c2ce549f70b4), (0x66acb07795cf1bd817e5408833e64317f1fc48fcf51f3804d2b1c96a84a67db, 0x7efd77d5742d031fb873f4ee6ce6f4cd2ea7ca01c4edbdc41df401abbda6716, 0x2a2ac0002a04d2643ef82b856b2a80db0df8b7f9827dfba0606af683840ca902), (0x2f1a05cf621d8856b2f52843f1b9a0c9736244c1a7e15d57ef9f1561fd4148b3, 0x100597b9020de27b41ff9aa1c2e0305da8540de2792686c18fad938ac7a0e323, 0x253cfcbbd3fac9718fa361d1b617ef2e9e292d591e17cae1575af3c9180fc02d), (0x34324e3b93c8830f347a3ea2cb881a6b71197413f3a6d4ede23d9632a9ab712, 0x30a4cc25501aad924bf4354a79d965b1b5293bc2e7e420179b9d7d083495b70f, 0x51559bc883a8d2d683596c901e9221a7d8e77fcd28d8c9bd56ab501037f907a)]),
  (14241, [(0x3ea8913f98ebeb383b5b2f162a9530492ce9fd3d7646ab9dbb6757907bdfd724, 0xca14e802e4b7640bcfc3337b523587318291feb74986f63b56760282d47c70e, 0x14f69d57f454aed18a454ba5ce7556131efd961a6ad3827d3eb95bbc23e723a6), (0x22ac2762aa32c58e363196e28b39f0d98b610c907fd1194168d70667f0a982d0, 0xa69cf1f03e4881ea425d2ad080d5006b8cd6bf3f8a909c56c001baa949965a0, 0x99dd94d2fcdcc0d65f2d3a7c7c90343c8d0aff4eac2c20b40f8db4be3df7feb), (0x3b3a02d4b2215eb165cb57b2578db5b7b5f2c3870744715b173d29afd57f4bbb, 0x3620e61348ae925ebbf3bb2a75952cc0c47e5b7636bbfac0308c542343c9a033, 0x216797049336525786468ec7d8d339162b5f7741185ec77275138ca72bf7f440), (0x14fb37e7e32d546e398b28559451d3d1a19821f3bf3f8a1fc438144b34f1d960, 0x3b6c25c52f077cf49f19941dc6718d37c1dafdbb14cdd021a34a77777a590e98, 0xe466f522a56ae5aa48a3ec98e9011dd68f7a91cadae16e5627b74b1f2730628), (0x21d399458f9f7fab5dd006df8954f1101c95988effc4f2d6dc95f3de60e23a07, 0xe8e596f45d87ddf91f8ec409f81c38a8606a3331e8267e022ff071223328a9a, 0x2d20b723ada5e1ffa500789ab76f1f5152b30acc3fc7367104930585fdbb2897), (0xab400d84a319a6ad6e616647ec83c04d55d12a9b699ec63abd8d62a90e81d05, 0xc58407c915c209bc599df25ab55700ed37ca26d904e3f199f9b4ae7e88e845d, 0x3a85d77e41088f03fc8e3482ff55e7ccd293abec56aa69642a72420140b4b0d4), (0x2e978eda27d9b5cf88a6fb6010f1c9ff586e32b798a91031e4a2e88ed499f395, 0xa93a9a90b51e3eb6ad59860de20170aebb42c857fd3cdba5e4104d5ffe7ccd5, 0xfd5d3d62691db940120f23a7d3821dec91c0771d98b73e7bc96c83059af2b01), (0x188a152957dbea6dfe86dba9b87caf5b7aaff1235aa779e1793479d5a580ff5c, 0xa4363d1a4be8c4d8944a8e20eeb95aa6ae0926a244af366a434b34510048aaf, 0x1be66b674902743b956052fdbdf216c5a7cba0e4b7c7f08665b387427c7a30e8)]),
  (49210, [(0x34c7ed8d723956c67e76039bdd4827d83cfef1e70fce6b8877b96d32f0a1b89b, 0x8bbd4f49e30b3d6c6d26a0526896254423b2eea0355f89b8dd00bd8a2c0df96, 0x38e31ea9cffaf29af54b91ade84084b0ceacf9c98d488c0e7a4b42116aff7ad3), (0x3fcca405841809b8f16a021b0a0f1f3042c22342755b105c80cc23910fc65d3b, 0x7d60440e83faa0d4f577cd17fb4f3d3aff68c91f725361ab2ab0da4aa8bc1ae, 0x1f7b9ceb2b211d6b8d1f0a1fad2efe838fe79d17d87ae14b50b5c52bd39ba736), (0x2ff7d38f45a42ead7e65e3d08d9102304c862395c302a2f155ab4487e92968c1, 0x3d102f7d2b9d2f80dee481cc87201cc78bbe06c5f62c4f696c80247cf4824f8a, 0x24ee731680a1376e5c820b1a38a3860eccd47ff4a08c27af7d93b74434bbf9a7), (0x14d9eaea64df600ac73d20c41fb13f7b07ed21ae20f73b1bb722d74620184259, 0x234d55730565ade0aafaf2e499e1cc2f88fb1da082c92d55e3dd543b8d2aff6a, 0x1fab82d3542cf2a3f1d7f01cad55d25b8d9afce9ea03b1c0a5f5f266ff4f949c), (0x1ffff7c44fd48e322d2ae18154bde6dafc11bd2973ff03e14534133ce5b7f921, 0x3ef144c5ee770e0b54d7df4f4ad34e390305f382a58408699a0ed65a0e2bd01f, 0x1061029cca8cb78e5cf81b4418ce1f96907fa1b950200216387c46901381037d), (0x30ec561e8e0432605380b2f29ed80d8edd0717997ff7cc57e4b9d7baa63bd247, 0x287056ebdd2a9d279d4cfe057b7d40f25e04909878aa4e8d11b753ae27cc0fc6, 0x1192011e09a3234556880018ba9fc1807ba2c147eb5e32d52ec4af863cca7113), (0x3a8e5905a49d8188bd039389c64b4b78ee9c4b8a33759be917161ea9637bd5d3, 0x1605a3b197f3bebb72ec1b6bb2aa9e93d9e03cfb8b16f1ed1fc497192dee0c93, 0x54e411c3753bc5f8243ffbcd5a4eb6742d32e0b1b6bb0b561a541974e780ee8), (0x173a0fe3f3806629bb197c6ce332479b480ceaf2962be1eddf8ec9f06efced7, 0x1fa8220c99e7ca26dc570eda1851175e46e26bd374c18f899f224409de1f9b2d, 0x3d5165952f0fc0987bd13027456e35b939d298a12c2644bff01390bffa5c0bcf)]),
  (116579, [(0x3eb800206cdc066757c6d725ada8bf3f275c828857216967797d095e4f7c39a2, 0x2f3fea2cdeed8949d34293f8c3eb55e7e19a6a367a8918c351ad793704e51d28, 0xcc3dc48829f52fc55d2c274bf52537863bf3a1b0a4d822cb7614c64f3584aa0), (0x1bb876be902031517c2342bdb26ec86455c8384270bbb6743f57573de7c6f6b3, 0x250988c7b1b54701994819132f114c5e416c46f57e83ce548b085ea2c49fe90a, 0x3d9e8021213a8e9ac4114fc422c0c7378574ee15691c4997e8e513e64ade521e), (0xb84924c4ed1ab1d78322e215232d5e37aaf447e4a3a01bcb95b8a16239d050f, 0x2fa8b7bd29dca772f11c135cbc37e5d432770b0872fad5c08bfe9bc1bcc78750, 0x63bdd08064ad33e3f239d0e0a0cb0c378973f87e16112c0f395a55fb9daf987), (0x50ae0b4531adc0e519c27a8811620718c8adc6596fee89b7fd5b58d9cd55fbd, 0x272192c029cfa910edb1dd4dd082cf3eb6fed3810a3f3937443da0bc368952af, 0x2f1e1e69e1d0ef9c22bc31bec3255f2ff96b72ec83955d00b17dd7cb5a0cef42), (0xb5214632f9eec2ad20af3b5b25a2146e97c9fc453362d5e8477cc9c40782df2, 0x2be29cbb5157de19b846f9b8a8411e9d4d419e07e8b3c3d150d799dcbf8e699f, 0xbf21a9f11e6ac290ebae787c7453843d19836133526b821b67db77def0610b0), (0x36831aa3ffe717ab5cdecee232e6d5cabecdc998caa22ddd9161cf0d30d922cd, 0x242e370ececd45b602bf0de2d5727cb184244262aa2aa3ea5bec955a564f0689, 0x1cc7997cf2d9ca228ea364d49ccf719ff0d3b79bba6b84a694eccbbaba4bfe4), (0x3689775aa683b195463182cf2878b4696890ea73bd463631ff71210889d8e261, 0x17dc50a43d90ee6cef8c55ad60b82503887a5f50c1928d2b26d98cedd56e447b, 0x37074a2c9e7d2ba231b36bc02bbc0d8f872f84639e20d53de15b4df1ca11fb69), (0xe0afcca6891b3203c6e756b53892d22d888390e06099cba6644d5dbc5542ff9, 0x47e640fd7332908ba0f90ac6b1b817e07a21c34746ddcd9dab3ececb4e41d3f, 0xa9594a2dde6ad4ec74a21fb5892d08c4bc6a98b54a3573e9c9ff9c746045eaf)]),
  (9614, [(0x2f7f60f5abb9d3f79d25dc740ba55920d510e2f28911f2e80e863a01eb23bd8e, 0x1a63cc1bf4ae0e53564ab82df3eb6a13282331c53b091e110921afb3a0bc8915, 0x115554b39363c9983cafa074e2e7d3ad5bcf3cff106cef1fe8cc8a316cd0501f), (0xd071b7ebb4bf8084d271256f17a322323cff5dd36cd9a5fe12a600a97a09498, 0x1a5d4e7ae6e1e28ffc4603e9d8b529961c6d5f6e697899182bb4e6b6b00682d1, 0x8414bee926900863f13fe35ae52dbf913d1a78a86b1e9e9ddd12e70f9c8367), (0x3f822db0236c349669a1f328ae66fe05d5e4526964cfc5cc7994f53fd2660a07, 0x297dc466febe068057cbbd8a1e86d3f5bf0dac20a89fef6e5ab421211b932dc0, 0x338f0c63631c538b6ac3c105629dbe235f407c7eceacd5b4443f5b5c46ce077a), (0x1024901af681a3405c0a4bfd23fea295fa702efd6444eb658dad3690a085968a, 0x25e0d786e9811d32f14a0e7c4f9dff0d84049cd14ffb9fc5455bf570c7ded6e2, 0x5ef1df920cf599ee8cb8346d56a0b8936a4ccccbe9921ff533e315cd7e070f1), (0x1cba4dc82ae512cc362f81f5987e1fce66ff31e50f00c40e266932f40c5e9c25, 0x1c61979b427217578f203d95531ac901b8d59d18cb29c7873e5039612fc577f4, 0x1cf2752480dff5987aa05b23bb4d8f2b70332f57ef50832a944ce2b8f7ea0646), (0x1f5817075e82b5ff939288d9665ad6ef7976363e66513e693736eab94f478171, 0x2f5d8597a1c0e483163f10b7d34013fc2e95afb3e3303a40e97e8c7f932d8df7, 0x2a317b6541da1d5b291d0e8a577a02484cd368eef3e1709735800a9b0772b36f), (0x23d276ebb53c746cd21e4939eb9df50f1e7e4cd51cca84efcb56353f9157718f, 0x21c77fc7d87e10bca0d56f430c90488a7077cd7e7163e7e4b08093c0a50a8fed, 0x204a792be1ada01393fa72c2c268d82461db86f1eb589cf771eecf4a8bba1b8e), (0xc53fc9ed3fde3960f190dd00c41a0e6c7c2ef8323a9f07a13fbf0e697d69d1b, 0x287004670cd733301c0d7b793d6c99a01e02074010ab381e3381de3ec8d56ca3, 0x1c90f0662d3384e3ee77e648ba7c02bcbe599f414d5c4c8f2ce1eda8c767a569)])]

def windowRows3 : List WindowRow := [
  (3395, [(0x38012b92ee0e5f07f69a5bfba3e3630ce88133ac9d97ff8f6958f9f23bc5424, 0x2e492ced815638672f0e032bbd1d8ba5f11c0f28594403ee8ed56748fc4c7a9b, 0x1d34e7fb1a0ffb640e002ca62ba2bb0ba0c8820f67a21aeee56eaabb03f7f2ff), (0x2d60d2b11b870f0ca7127b07e16adda00418ecf1616079ce6f5bf34269a76a2d, 0x3f3d29006006969e3d0fc1dd009ebb829058fcabca01015d826e568f47395377, 0x65da9cfbdf9f6db533945cbeced88c74cb791cfbc593e3fc011680bf4c61173), (0xe3ccd969be63fbc860be966c486880dd8032c87b77c3688ab8bebe57ff79815, 0x3697600ff32795dc716b50a160ca5309e2744b3c5cd4f16f281bc561f4ca2c2b, 0x39c28542629098af307f75fc08df25b92d060f6b15c62341c8a17f9232ff35fb), (0xc22979ca468cc7268c8695c587f52f6aa0a3f7a5fbd5ad7199b4c51fa908201, 0x1e69f2111974aed90f5703c032886bcbb6dab3e5f09f868b97e2205db16ff48f, 0x19d6a0fea0f484ce9f8d8c9c73f2162c8cf14f73f9253d196fe61bd084bf2438), (0x949a210ba9bd16084e500efd48201321833b92775a87a9511c615d61e18b3bb, 0x153b36b8ee67c5ac20bedba6aea979cdc109f14f801ce26cb41b682cd976ba6f, 0x1623548ba335e409d15edf06c06a513ec2bb2b06321dc0080f27002ae4bcb110), (0xfc3ab1cd3374136a7075473c74c8b930930a390ccabcf664cb5e9853372e1a2, 0x265970bb91392ae9d4a85b96eb8b3beb09b8fa1bf1ec30bd594a1fd12cec51a3, 0x1350b510e45aa83a7361e486bf81b537cae90d7fe49ff4f85663814f9d09f5d8), (0x369a17504d8557a02277c8c90c01285710df160fafdb641ea7c1ab500ed8de98, 0x26923498ef859d684600da3cadd5a31c951b987182361bac781cce479ea3854c, 0xd6ab26ceee2a019fd1b698edbb2740d37fe27e7fb09dc672725ad68ab852ba6), (0x584615c1ce77ed6a34478abedac44ff1227ec4e96375fb89ee7ac54e5c9ff37, 0x348adeedff348733075c1b90365cf451d80d24e57a34771f838a9e719eb0be51, 0x2dbbeba64ac3d3039f9bd17169929ed858fb8dac3db32c486a53e58970a56600)]),
  (72959, [(0x12e90612cab7467e9521b465f994d0ff22a93872a2334b81771c18d6591c976b, 0x30d8290bdeec5a3633607fcbf29e7b5e4302a3b4cb4bfafc897c916f15493be7, 0x2856a702d12187bd7a4b0eb131fa01b186122ee6028ed4cadec3aac170606d00), (0x3247c840891c27a2fc9821bf94b900ff6d576b375d5a6dc7563eba41c85c9867, 0x7a283a8ba62d874cbcd76fcc915497e7f47ceb282ac153016e758f49e1b59e0, 0x3645121f6a4305ac8ae8eb1283a83c3f207cae4e0cb65fcdbbe9dec039d7b092), (0x36d086e2bdcde0b492281b47f1cb441fcdf48356079e9a93d869a649a2011540, 0x47966229aaa4c97d462148029e53636ad817e4c897783102c37b45d24785065, 0x377eb34c840c7a198ef197a6d73466a1181246996e4c0f1fc7d2dddc7616a13b), (0x25159f1457cc095d898cb071bd5d6880723bcfb6c97df81c069a184e1f381464, 0x3b4ea008244739542723739909d6cb099cb0008983fa3a87290588ef6af78e57, 0x355b8456a9e7667f76d33b9fba3b83291fb6b137368d538516789fcc1db8244d), (0x3905aa364e091c796af22f39539351c714997f0a856836e7f32161a989d16cb2, 0x280ee6ffecfa5a60ba2a92f55b6c882dd1e40506b9338fafcfb2f993d03bbe20, 0x185bba21ecbf9cd300d390327517356bbd21467f2b9808d11c20ea9fb50a4b07), (0xa683f0029d0b7e54805ed802b4f6767d8a7b4fed83f6d601ccd9b0d23fe947e, 0x2ccb6b940625e8f443f32102f9b3e5a59234e48c0a46c31b08e8c879ddb782e6, 0x3d20d7a5c3ceca8c8773f3deffc4d3f52275bce2ae78a76c368cbff8374be9da), (0x346a0a76bbb4d1f500a89c3ca81436d092b55b38d8b381e58b1d3ce35e34787a, 0x19e6ac3cbcca9eee872218b317c371f02a030f6b2a76e06fcd9b319cef8d1234, 0x2096a18832f4170695a9dc73ae01a3194ee52671aea4794d349e83df7d2f399b), (0x2d51f54905d8b14672e50200bb790a89ab58e7b31fa381a7c2dcaffb23ea99b8, 0xbd363939f42639cb8d819ffedd35e4e08ab4a58215e903fe5f20348f9bb5573, 0x204ccf29cc74e37bd36ac517da4538e6d9252e1e90dddebc4946699b08397907)]),
  (19163, [(0x3a4cf623912214bc4b88ab6ebe66abaead76c68ed1037dd62fd83a5e73f89722, 0x221e536aa6fe1246445cd7b679b51c49837941c188a7a6868d98f4b21513271a, 0x3eec349b753fa309b65df16f6e1ac36eb888c7ac0a75177c380eee050f884766), (0x289336bcbcba93cccb89cf10ac0c3f68e708830c869f89307a527eec2071e378, 0x3639b1a869bf23271b42b3ab0ca978d52a11e4f1b53799d75dda60abfeaeef4a, 0x382bc6c8bc20b9cb055b4b82e232e770e7fc864dadc45ab037552f6e495c79a8), (0x106445fe16ebd2ebc8fc6c9b8b7c5f914279ab832e56f5c0f93f5c669659e693, 0x235bc175a6a208b7fa9206920e8fec6ddb94621500eaca348219912177a95558, 0x33379b008c760f34efb2192a87002b99fcae81ad7bd245c83a8e124553824032), (0x129feccb1c227c69f0262c17415c5db2b97c7ac6ffffbbd556e89aabf3ebffe5, 0x22d36b834904fffd005c99d05ffcd127ddd2972f892262049f7bb8e45541097, 0x3ed5ac669db2b1864aa2ef0201e098ee328b82aaa2312235226454ca93b76881), (0x32a2b632bcfb7890479624b5f32b5aae71fef00ab3586204bdc8ab4708c3e0fc, 0x12241e51596588b964f6f655bf532a63e20f383b155c4366b39e3fbc82c22d6f, 0x99d34941b323de5221483dabfc9e73023e3a919579d80548ccf1b2b1616c264), (0x171a2fbbc23f3b83dc0ad1d918da6d1f9e9f7d0ef090c6c0e4be1a3ff14708c1, 0x1b0df7b52ab8ed59595c82f469e1057c1d232aa3809b5e48ca6af4bfdff87f7f, 0x1d6d7497b0d159c2970bf2cc21953b6a0cfbd4edb8d8bbde07e287fcc96f4c6d), (0x216194f22d21fb98634d239cd9cdfd8912863dbe1ec8f689a1d04a6fdb1ddd89, 0x25abfc9a1b29182e87b6835dbe6fbb21acc9b5434fdd8cba92ea7e5b08e1e8a3, 0x21058256b047fea805b2fc49d1e2756991c8079ed3f37fe471d63a33aae26bcb), (0x214bc839059c99ffdd02f7a62e5b592f5450286c0b59c62210626976539d8737, 0x29265720272ac8876fba86612912beeaa60a213dabdc86bb9cec40916f1d3109, 0xa3b31efe9fc0ae689c6346b48c71330efb402af26621261d30c6f5b9c9c915)]),
  (65943, [(0x3035aa0368e48e8b88656ff400c1b03806de26e3f2d4642e6395e9bf21117ef0, 0x5b3919d8bf63b4fc8bba657e67c5d55c70f398d541fdadfd4a44c06fd073df, 0x2c18d3bb2b1a45c722f53cbd8c0611e00329992ae5aba2670afb3b45ed5ea3cd), (0x326b5034129f373e4738975653e0e8487a6b7f7e60630cb457dfde6823ed3a6b, 0x20f785dfa76d842d618d9944a376dc608407525e770a37835549f84ae1a1e203, 0xd62faf4b6ae0bc2e4c89f722f4d4af2502d53e79602dac4b09fe5cc4c6c6dd7), (0x23227fd5b26107f9921c2efeec4a37959b9dfb8d07ad7cff48322e2d0d07ebf0, 0x1d7aff1760c8e274b4f7f3a89b656a417f07adbf9043adc52ae0917b53730155, 0x3d9a94106d5aa0c6c123b213e0bdca6914a736026fabea8978e3ec5b46d10485), (0x2fc85fe79713755b1c2c65981e4c231297fa6f2ecc79b1e3fb0a0993c3de9ce1, 0x18b0e633c7834b3280399705df05dcdcbc7807c0e286fba050667b87ad3bffdb, 0x29f3aba1c3621a1a8153b1b499573ce6e5f2f86a6ee6f8495caadaaba3f2ef6e), (0x2a389267ef721e33e755045ed174c5a50d766cf6d99c155d522b5959f4551c9e, 0x1d2037e45e97a5b713e2fba738daf2e230beb4fe8d2766c28083722aeda76cfa, 0x203d9acf6ffc89fd912ec19d11dce4225091a065547189dded7ddc695f3f7105), (0xc6424857cca4120a24fe1fd550d9c2d75b5d5d05a8a9bcf674a64d8323f6269, 0x18f9f406b1b0ac17becff4a6ca9e0bf39a91d36750fb95e1cec89098ca742bca, 0x105d917aa892897a2074df6c9cb51941d5071e77c63c1862bb46ebe0d85c481f), (0x124873330b9ef9f69182afb7d680d8642ae78a6076fb54cfd4c429582aa87ab9, 0xfd1a48ea1f5a4bc72679caffbf6397bc49c4f60bbc86caed408f348b5689126, 0x360afc3ec8f7caec337e5538503c146d842e7ab56a858cd43b2e8384f2bdc6c8), (0x351fb3870526a5c36fb9fbd48cdb9dcbf979bb42fdba92f854ed6c19bf4fa15a, 0x140836dd43a38e20bcb7670772c35cb7e05bd0b5cc3c83029ad9ff5832c56c20, 0xcb22c8dbdf3a92d4e6d551fe851f9a242606df0099aa130e595fb39d4b0a18c)]),
  (73370, [(0x3f5142c9e8af8ea642c20826c7e727727034b9b0a4c0ba7a554dab4740a3c6cf, 0x112fe83cb692c5dd9bf9ed6525fa9e2bb5827eb9aeed71afc23a2e0743da77ec, 0x2f2af506f5253b7d0adb1ed576418aa9cbfc87490320f793064c7763adf2e0ae), (0xf102c0a8629735ba3a7a938d45f062a746557d74946ab5d0ed132c36617c51e, 0x464f1fab6a252de6a3aaac5dabb27d7a98fed3e2ffe2ac01f7f26dc3ccafbc9, 0x9f419933f9052475fce827ea398c32e17b1fedb025023ca34d3c337cda472c4), (0x1bc7245f35d9a8423da4bcd4a7718894da69c28e4595b4f517219a094241f1f3, 0xfde282edd27d092468dd44b819a9dd063d3a6ceae6f52d35464707072ff262c, 0x2f4c19d86e23b5ac60c2f692fd64fa0786054cf74b48baa466e0b2cc7605743f), (0x3d48efc31abd399c49270cb6d7dc52fb44423dc850ef7ed78cb8bbd145269a49, 0x348e01fc429bdd128ad6e7392528b46deb89d03cea7a03d7caee831bc1e09081, 0x1572f1b93430c6470bdcad84d0d73fa5d14200f895c9e0d92ce684d98f58c307), (0x33990a81faea82606a47865f386ad398ea49d86ebb0308fab04dd649c90a9589, 0x1e73739a8b1340f8cab865f2ca839f45ae46f46a6d7dd3c84b9bb9766e3e1419, 0x10cd5192d7b773c098dc686879a951e56be9baa59b2aad6440dcc7a309552222), (0x1d86061bab3dc0859e983d43c2f6b2125cd9286fcf4544b6e7569e1fc10d38e8, 0x1038b29582f7f63abdf8ee29e7143382ea8d1fc3ee137e7de5e9aaf9afb8684f, 0x289b8a3d00c296b6fad4af6953a3edcd0196d4fb13e78136cb4abf8d03b52fd8), (0x258e1a63b511a0a1b0513275f30055e8b43b14e382e9979ec5c8559926077479, 0x25f7a8c125ce4f8515a18e6adabb40a95007af5f177d3e8c6822381e24826478, 0x1a94bf568a981bd78111fc2d7513872e1aae0d9317c813f7b1ef74c17228d045), (0x347b24c82599cbcfcf0c8851f8b5facbee7334cbe4d270133fe8d572dc52aa2d, 0xcd90b41020f5f3df5ef02cd456ca2da2164025cebd0be5597759014b24b015f, 0xfd24c414f70a4466f01351ee05be4e3ced695c03dc433960a19d68ce4703589)]),
  (34409, [(0x1f55b7f8c14fc4a8c2a04b056ceae5bdf27b1d0d32acf07ead926eb2509e5b43, 0x745b086febee1d34015bfd4124f507e69658117d1d8db7c3e36c37d990efb8e, 0xccf4a2b8593e08bbe6ae076e2d4212b3b04942f1415811e0afbf6f7f68a69ec), (0x25be65abb2c82497e5ab812052bcb79daf58ed62c0dbd5ef16e3c66e16b67cae, 0x91b16ce5e364640546ea3271f6139bfbfaec01858d6f36a5368a5cc0ad702ae, 0x153a801a1a6329f5cf8255188da24397404b297de31c3303628fbf9bbe07623c), (0x9fbdf0630a8c1de6a00b14c436454418889be07362ff3574a484eba3db7c09f, 0xd993ff52aad5f5fadb1172e26b130720e699dae6c917ec0e0df361035c41db7, 0x3ead944754e3905c1a1d66fe50ad404ada28596f542dc829e52b213825b7073e), (0x3860cdac4978b14f785d6cfdb94cca47241b4d88b331e87e3a99da237a079ae5, 0x17258714806a1b5e7a2da803f087799c7ab73996ecf2771692b691cf44c2ea32, 0x1065e570300e5fe55e8c69469ea20ab22d266a7513c188d049b41f11564a6e29), (0x7deb2c3577a3e27d3a8eba47828a737853ebcff33c77df34a37990b0f2b2922, 0x36e64f934f507b094978954ffa91d15e0e1d3e48a3d2c355dc3ddd54217b4b6, 0x2bf484cb098765dd7b20e6aeac253697924e310be054f6a5025d4d7cdf4e87e1), (0x3dbd66147df101862807454c35b898d700fa99b132043dce267cf81ec368ab90, 0xf00074e9757d8297f824d40b3969415f98252b1f67eb5e788699cb9e795750a, 0x3b13cc7a69f3f2b48da0d4ff1ef8a6d930e26d9801a0c506308657c03db325b6), (0x3bebd1e37cf542c6b7052ea242b6d9da13714f2a9bbcef594567b79f550f978b, 0x262ddffff14cec1b20f2242f28da8b223712e761df8cf8c973e88c885f266223, 0x3fb65c4dcfa67adaa232dad7fb0af8bebddfd08942c81268f3fadb552c04a27f), (0x28cf6760f9c547256ffb3bcd73e43db5f6cf3159eea924e2ce8f2c73356e27ff, 0x37d2ee5ae7534f071e27515b51014ca2875be746b6db6edb38da240af1796769, 0x2990ef9658da773ca6936be6083e4f139a437f824e22768156b48699ff47885)]),
  (64584, [(0x1440f0216b8d4c5883905636295c283d3039c791e32afd7ec04f7c312f43b8b7, 0x120ac5f386e1d44cfd1fbd717741dff04b141b42dca07715ec32997192f59fc6, 0x237b21d19230d4e1b7191898e58807796160b0b8b8a8ee35a6c43e416d84f34d), (0x1d2487d077611c204c7035f44aab336e33a1d6cffb9efe9ea04338b45c95159c, 0x13f8d1bab46bcc51980f26228b5fb388eec60393be2ca2ecec793ac7f0d9768a, 0x30abd2d8ba8ddb985b634773239271767eeb2108736263de026127e3a54eaeb0), (0x2b5ccf4558376c31c0f5c5c07de080e65b017afc8b38d12a6f2b60984e592bf, 0x1eb85e4cf5f69e9da28d00d449cfcb6e2a3617eb94ffbd45f32eee911ac3ce4f, 0x18e4c5fc036ff1fd7f01fd5a7dccb40af04a115e2fcd339c36a4c6910e041a4a), (0x175d53cc7d5b0b9f4ed152af790decbffd849c430917ba6cea8c2a5e50b8aff3, 0x3192ad9ffa7d1eeb7927c27bd94f1bc171a186580b9e1cd07851b58493161eb0, 0x3d5595ef7ce228eea7f000dd100d93d84064ca8b365a597130ccb6572ec48cec), (0x656a12cf21e497a217905d97043685fdd5ac972f0f935d47132c3175bfc4a8c, 0x34e1aee4f3331eb746f242d45e88fcbf39c615fbfef9d18468b0112c813ddd26, 0x81e27f04b2d13efdc7d88f6135081d9e47a47e984339be7e9b54a5669d4771b), (0x3078fb246696f7dd11cf55234190026ed404e641e1f9e2a7831474ceec690a0f, 0x1b9e421b82e639148c73506735d61852d04176caae0308229da466e2afa155e1, 0xfe6bf84a4bb2105bc3f5f5e375734030edf3f60e36b5c0ab6ac25cf12cb502), (0x13b2079f17d3ed5967a8a167dacdfc9e71b4d2f458f8bd8a3a1a3aa156b96d46, 0x212f23f9888efa5b44948e1096d4982962b7b33232209faf7da4ab65f41f2b2b, 0x17606b82d70ff0a09f45f8af905e5abc7a898245b68bb8e9fd7af9f6b3ce589e), (0x35a59fa3318cef67e8ccaa6bf4a884d74ceeebae95801e65987eb854aefa92bb, 0x2918d5274a7dee81207ebdc87a6f74e270b57e477a557826cdd1fde44b614666, 0x3924bc869b0dae94de3821c8eadf93bf7d974423dd108682771a36c1ef596c6c)]),
  (105594, [(0x19b543cc2bbf3b6d4a5f9de2e4cb85fed093d48a283fea4ef1405464080d11ad, 0x32bac6489cd13113622525b98fcdbd18add111d2aaa7fbd8762213043163ba3f, 0x1e4fa323e033c5e7907214cf3d88b2474e22342d694159b2e593184a48438afd), (0x10842cebb442a6efa5cb975d48fdeaddcd522bae313332d67670001a1ae28563, 0x13d59ea420193384a24a11f2be15b63193ea4a077d541843c6032dbb839e35e3, 0x17aaa736c49d233c5032337039e63f041d0dc3bdad8a138781ae0d6eca248854), (0x12c7d4a97ddbd4e70173f757034c28c3fa8d219f1bcf7716d7f1fcfb1b058864, 0x82ac09c6873693a2481a3b1ed8f7d153e7353cf3e947395e3334cdebb862021, 0x3ad3ff18c44acabfc52bd9b364bc4159f42f76270e33ee17a64a6c8625abfb75), (0x3116b1ed5be5606441b85a042d16812957149889e969305658d069de8d528838, 0x3661cf4f26c011e74924326f3924246882497eabf335156f79f007ab3b9c40ae, 0x3601d8cc154b842cbb5af911b513596439014abaa2562aaf37a27fd17c67f416), (0x25ed528c11dec5904f6f60b6a362061bd2ea1749849da359542783cbb5c6a6fd, 0xdfc68ea4dc5461a87dca3e982c63ec2a05623ea2464d0af655ca52439594439, 0x15a127a2376232fcf513c7d699f909608ea21429d231a560a5eb52bcd331b1ab), (0x2a85b890ddd05fd0074e0bf9c4dc0b4f0524f44e5e5826b762dcd8c8eac9ba6c, 0x225d426f729ac60217ea52d72886f1c06c4f70976ead1e2432c7ed78aca89e19, 0x34b7a63ad2472e459ac18947f11ffeb023527327ed4a5e6e06776861f00c60d6), (0x20745b2086c22766690a53732a79f769435e719a301b2568c7bba87af7809a3f, 0x3d12cd5a5dff6d5fb378d80fb6ee362233654e3ea895ebfb6ad1a112100b8477, 0x30f3422338f4ba29ded5314c796f90b1d7381226d7c81d0e560061de6b3eac45), (0xb1779525f7077f9ee91a277b7481cc2d4643d9b3a1df77c0251e1a23d5ef368, 0x278c5f419803da679649ddd108f6273ab0f5123ab4785852f17125845d6471a3, 0x3bad0ba585fb5f5fcbf6cacb1bebe722528ca7301550783d01c6cf5b0a3c57fd)]),
  (55203, [(0x3ebd3d7e0ea0ff89d8cf19b14a03b6c049c4f26d6e27cc5eaa4fabdf74f3fccf, 0x28b89e9b8be3ce22f796ea984ef447c41112960207edb5ed54adf4af2201cd4f, 0x27aea1ad408df8e8e47781df566b1e153cb8fd5998efe3d6c23b8dff5ca24dc7), (0x6931200c18265e99d85086b7b96f54d6c7707a14fd5b49dd81b7a656d404d8c, 0xc234028cc6b872b308ad6dd039ef36b9f63ed64c90c609181381e5bdee43296, 0x2d9b63e86f6c8fe1edc4f1494eb11bd7269aa7e20043b1adde6f2bcf119b75a1), (0x1cdb5a2c15a74344d2fe2f0e56a3445ea5afc678faf0aecff4193c63a8eac3d1, 0x34d0105bb51ac3f12206b6a98ffc6f1e976b198ed4e39eb157dba5e4d916a98c, 0x299ae97c9b7c2cbf7774366c6cdaad80f2bfc48de7cbf110ae630731454a87f8), (0x2ed5430afd877a60f98ba3a7cd453fe31c54d7106522bb27677ee60b443a6c97, 0x1fb161b5300488ad5cd643de7b6c5bcbfb7e2a98a038d4233813e41995c36678, 0x5e7c32e7fd274a844eebb159a5c4726454cc9e421623aa25c9da1ab61457a87), (0x3c6f2977a429eb293353a25ba54ec426aaf8c4a10f7c32f318492081ad107cdc, 0x38521c804e05eeed7d85318e109ec6227496746aaaccd1ca805e99ff32567ade, 0x1b5097d2b933a0442b2da9f3c36f8c3a1c1a5cf54e655d34f9aa3ac84a64dcde), (0x130b6ae8d22758f2531dedfc16b6ba1961c29d3c9be5fcbc7c62e947084f9d41, 0x35c21580188309bc5e3f2771a064821ed32659076b5e1418bf243d7128a3ed7a, 0x5f9b590267c3b810fd00dcb0f32827f73aa10d15b483eb388727d312167a584), (0x1e2034a979ab868d3dd5f236b63c34fde73de0aa78c75e85c13b004ed71fbc8a, 0x3366329026f50f5e16382956a04ef59a3003295d8a70971a35ea6720f13e1cc4, 0x18cb2303f9de47768d56d15afb06453eb4b66f2e8b393166928007e314c6e63), (0x3203676cdadbe123d91f8f080544eb117e19ca3c36ffd4fb7f4b14ffaaae1f3b, 0x25407dc71e972d65fbd4e2d33e2b96b6c64dc55f9a77a32bbdc42f47381948b6, 0xb6a8a498c87ae7fce0a2f0cd5767a1aeba6b16ade197e3a28d7ba981b4ae36c)]),
  (153173, [(0x3dee2292e0799f13fb15160ca9cd2d536f152475e6c2b0f975b87b788b1bc86f, 0x308e848308ff17c35b4ba64b9d96a7d5c30b2685e4007d84f0670bf33d699efe, 0xe1070f6ba44aad548e0d45ee3115d7f9ba3a4d182ddd6bdbadbee75110195a0), (0x40695951e22a8f9aa83b60fcd4289a3c7b1f3103299c33dc027b4f006abe098, 0x1b24d242258fa81156e4df649782d63793c52464ac720c7f19495b13882cb220, 0x3c515008f2e1af24c0457abc7651a629050c801642a8bb37b47b314772f182a5), (0x92116eb7bb7be8bf676e2c7d46ce68fb377fabb813dce945a7a2b8a61c0ded2, 0x626c7780ad14f33e8ccee2334e0ad7d24012e493b535fa30a88ee92dec53ede, 0x3235cee45e9608033462d5e6f0cce5d8fad5deef10deaa7d7d5224e39a4a9efa), (0x24dcecb1ab5f2cfb9d80a9e04f9d5e0f034d0e1bab2f340b64578f015271a0b5, 0x1ff7025a5f0f3ab9690c679165c6531188b134fab0df9b532f599e6b680347b3, 0x38ed66c467116267b794d768108a74953c90a9c9b7b256b75d49093dfcfc5f2a), (0x26f3a63b07b5005c5198563e73a1f74bf8b76a02ef45b0d5b319b5b5cdddb038, 0x3b63af47c1d7de576d6d0d3885148df170a9e6a00aae8a0b254bcd3a4c3395d7, 0x348d9b5cc2549026e3d88b00d4f79c89ac61ad0a3c0ac8bd4d462f2b97a2560a), (0x102dd56f44c2d9db092ffa98b885d6e5060711da053c708582208906e52a8ba7, 0x2aa091b13f8a1979208a92dfe6ccf9470e1f9e4e9a1d5b504d5860766e964310, 0x2a3f0278e7709b2107ea08e07ff6e944c37642a8d838a6b7fc5937a46676fd30), (0x1748ed88c20c39315ea66567ca88ef46a601b40d786490e374f59014696432d3, 0x210319082cbc87d37c2e8a6bd72748a80b7c6ffc06dcf5f3ab2787450a273331, 0x31c7b5a02715e70c325126654e903852618a7bd713ea4ccb2a9767a2caa80061), (0x278cd35902b70c4722c7a96ee39283b3bed70e77b450fde92920d9e86e7352f5, 0x1d70f05917b97c764fd8dfcc11a7bbfa081204ee5aa1b201597fe674b308f641, 0x2eb496dd9149532c697090f79bc7a0ac58a7ea352a8e26da4a9ddede1b899483)])]

def windowRows4 : List WindowRow := [
  (1684, [(0x3ddc2602361790f9edb41d2ecba5a33a58095e73b31f2e4869a0fa0803dc4843, 0x2301141bcd766f067c44983055d0ac2b73e3daa55189c2e7352e1e7d560d65ae, 0x226b0e4e63d4fd1684e00bc7b9f54aec3f6ed0a47c86b4de717bffd99f1a3c2f), (0x38ba9e320c6818238d2cd844dc2684d15d981e347c9ad93dcea778ca5af8262b, 0x35977b5e5a3f524f300e028e314b2652f751d2ad06b2db008192d1cb9ffa67e1, 0x1649daf10fc8dd66e789cf631a98d6f521230ccc6fcc8ab928f0c8dc1801d3cd), (0x38f3c936b15ee2160ad890574a21e5f33860d5aada0b1613121f138c77e3ea1d, 0x16c434f29580b364a1f4e979ebd78c78a4903ff2c548a5e3449c92264142c46c, 0x2d23a72d49694cefd5a51151a3c635907c85c4f985cf760b80be799f2e6c8681), (0x34d864394e1a53986c14b86e45bcf916980aeb0962cf773f013e52e96593f50f, 0x8d2b1871b6a969e6a2ebb4a86031b6b7e590c6d58b4dda3b622eaa2ebb33411, 0x2b89f0fe2136f773d8adc27450b5263713a79a7631ea503538bcf8459e9a534), (0x174721e45bd133dd903211d98891018bf7463cbceb97346863f375b3b152c52c, 0x1b1cf2380af825405b934561f47a393c25747b0fe6001f733d77357b0d61f426, 0x113e53646f7dd18345d2cdb1773dfab0795647d5849bf2d1b24f8a99aa270799), (0x1be75df552b2792c071f0c011577d1159ca7a466cbd571c501d1248955323c1c, 0x276ee1abecba8068d7ae646d1f320dd73e6867eeb3719c89dd2f1258c70a54d3, 0x30b3583dfdb9f96720972d1de1ce7cb59bb04462fc2ae6921b2170ec9ce412a9), (0x227f72a2fbf5367cb53cc6ceb3589fd0dd7b112decf20d5030df9553b972e2c0, 0x2383237b66f147662b0cdcdcb94f118a723da0404f12a8305eae56cf04b8e7e4, 0x2c1cddb3ce2703bf22f6098681c2dfa386e330cc3e8cb856f021ef62fe216df4), (0x2d8fa701a720a1c7d81f08f0af2219b1eb1dd0ec39ee71fe40ab4820bca33766, 0x187647ea1d9b114498d140073da662818a1181fa6736f83223cacefccf146511, 0x329421c6fd6dbc897ed798c8d0d39b2c4a68379919a898e2c46f63d6aa615acb)]),
  (45351, [(0x392dc9cf65a4f53943553b33fd0bf5f003ba120db1b3cdaa19d26796351313c4, 0x381fa00805553f4f8eb9770844b434dbcaee5c879c153ce1ff1b2c8c78bba21, 0x291fe3659dade849f83863d995d7dc7e7e8271a216c11e6373d28750f9af2cea), (0x33f133204f724d6d54ccde90fa748ecb920dd86cf92b2c7a1859e74b70e76db7, 0x134eea77303b67d6699308b4ce1d36f9b213a71d76e37164ca81074c94563eb0, 0x30be8959688e6b3c50837b99b2deefb534ce587ef6f726dc7b777539cb17b87d), (0x5930ab7873cd674cb31cf8e5d5067fb5dae203cd968fca3b518f39c8eff9cbc, 0x29e4e55c8fffe070ced599de0fc20211b4cf0e1f928e53bd4c94460970f34621, 0x2ae4424dd002d3de1a69dc8118247b45d0e5a187467b5fd565886c29bb565a3f), (0x3c6d0f2b15b647821100806a60cbd9623db0c400cfd1ba90f8ce46d3b7f5f08e, 0xd8d14068802a60954bd6662d368c466f3737a5334180bf28761e21052bea852, 0x3472c9383967d0ce6d57d53bdb2bb2419d7eae48c6afef38affd32e20d6b06f5), (0x126ab6d5ff84aef9e5a2de088c9103859e62a26566e6d2af72c30e05f7b1d627, 0xf967a29b329e8c6e2991f3312441b696b4b2b1605349ba8e1c73ff195f20720, 0x12f9d0e995f857bb0058010fbfe64b24436c727bf0aa7d658d6fa82f4642bb27), (0x2ec85b0b868c2bdf1e5969757920684dae0338a267005efe29332a17baffa3a0, 0x397b002b6a06f29d21e2b03e0ae73ee77a0a70d4a95b4a23965790bae9d9d35b, 0x3449025ad325df4d09eb6193bde8b81017ecb862fdea16fb4a5a9a32b89428e8), (0x2a3c4c71d9f54dc5ad74e84ca9fcf6f65b5eccfdd789b7f167a1fc00ab9eec71, 0x42dd939b85d923769c9936e1c4f06ae2276f2962e82e019001dcc798eae1f25, 0x90d65beb2a1ee65a572be5ecfd1fd47ef56529495e6b259f6e91f77ef8342f3), (0x19aca9ad8715fbeb11c795664b82623a6312fb66b284b989aaec03f88d4841c7, 0x36561aa53a07a2e71d6590effb79b38215ae3994f498fea872606ecaf90b4f19, 0x103a48f9465a8e9b69beb97428cde9d592160b0beaa5c5278d5bfad162f0a4f6)]),
  (94119, [(0x297f6049ce4125970befb0c86d78f59a4dfa839ba7609ed2edfd113769eb7b54, 0x3b49c6b2cfd445d48b5374e540822faa5ed04289291d7206c3b1f468f67e951f, 0x258978ec25ac3765193bdb515b67adcf9290e6e53aaad70b30d277104b81fbb6), (0x2ea1562862f40e0a3a08ca8ba91b8d486bf595a6152855a61bb762c3505524dd, 0x8bad1ce63b14b819bc94bf522e870368b1d8a85c16a4c41bbde70a77acfd48b, 0x21db1d1c683ac89afc74088d95e79ce27e3bea5fa4939dda008a0003757670e2), (0x288b1dc26bdb27da2c2ffed6fcdfedc08ae6e6fa1f6652760e3cafb55d027a33, 0x2eca1769110a0213a8e20d1f8a9b2ed5ebfd30ca59c0c4ab40e3db12f46120fa, 0x3a4cf47655adc0bd3a741ef4fcfead02af424d26e8f6b83412aef1fc99e53c80), (0xe7c66533990adaa59103cf2f02f65fadb8b61f2e8297889d2e6faa301c4e05, 0x33096f42274bbd15d4dd71f3459083de5bfe0d0f8478322b9579cf44d715937c, 0x27ebb892fd59924ac8dcc1e0d9c4f6a73366a3b916d71f71c383c79b11d021d8), (0x2960a315b3a7a727d350b5fdb653c53a5e887830bd1304a2a2d4d3d51afb363a, 0x388b9a34a5337ff4bdd1a676bb2910a0636d8c2e52ff61062d23b8f63a5ed0cc, 0xee5a057fc2446484c8f0059efe88e117eea1db0ecbe56120c8fd8925da0b148), (0x1d4f4c13b657770ad7b4ee302a0974f1ff9f98f4afe1baeaab9ac543f23b5406, 0x2f26bcabb156824de240a50c12bf2080eef25ce3aa61989665659453fbc3f7a9, 0x84b33e05208925ce94366e53085d1055b6fe4bc6c5eb9bfe97228e9a219724f), (0x1365203c7832a670acedc725b23fdf251151d046aafdcf12e357dbe29552bb14, 0x1afa56353bd5570d005806c5d28ec7d6c7776e561d19af16fb70bc9e5fcb2071, 0x55d16ceb52e548d71d95f9d0368345dfa9417f7890f38175a82f29dccaa1710), (0x1c2e6146c6232fbc38bc913042b885e6fa4d2ff41b5bef241c54d56130a8684b, 0x139ce3db47f074c7571737ff1b537e4ed942f24e0c5a424e6c6f1c326e70f0a3, 0x1be30147fa5d98b71a551859b60ca27e4da4991fbba239436d9ca99ab9bc0225)]),
  (122571, [(0x2ecab849ef4e687e6079beb9f8da0585a491a2bedf9757435077ff76532f7d2c, 0x2839a238736d06c4e510edd0b6048f5d2f7b89c8a1a9cbf6c2b6104c26890a66, 0x2d33bd0dfb15dceaeb7a70fba7dc0104f711f8e2f89e3ff147cbbcad84b195da), (0x18730893e97ce54fc290d88582b1997bf4257e89c0fcb0cd5cebf037b7ae840c, 0x2dd130d11569607056c6dc32cb8e6c5c4b88df57bf2526ee5ee5955eb8d7a1b0, 0x6d8cef6e4df09a3413a05a5de85a9e9dd5e67e35ccff3a3297df2497c8b39f4), (0x2269aa127861dc90b0857abca91e471ff04e11a953a5f6d45d6e577a8106cb11, 0x248437c49b064114066025df7ec0791f9278067c0aa45f6189c0b2f0e2980f7a, 0x215701a2bc21af0d3a7b20a96c14013b531169b177d4145fac9e1378db22c964), (0x1587a3d08f5676b7085dc6d02ad6d690467ab64c73a15cb6b2097f4b26e42fa5, 0x32fd7f0ec3820958d647fccd1257be3112b6da69a85e8f1aa26f0cfaea540b72, 0x2db174d854f463c2717bc7629b66731407f296646b3a223838751cc4c9cf4ae5), (0x2a97bae94918e2d312a9c25e4a564e7900a4fb00c0cc1df04d10a3825c57aed5, 0x20bddff7f50ec0538ad824260b9a041f4c4f1e8f1d08f5eef1bf7246ad2c51bf, 0x3fa5fe418d93264cd302c9c21a5c16d8f5095e41fbbf1b15a85bdb84ff69e751), (0xc0cbbdc278d75b0ddcabadb4a31fd9f11674b391360e4814ad0dd9f85449769, 0x3b9fe5033c7e6f88cdd42865a351a7395410125e2a0fd3b1ac559a57ff340fff, 0x2c8bc103f2edc8b538a67cdaf1d853d1f652b491e557915dc51263a6cfb3ee3a), (0x342a3c884e2f568d8dfe9e861f22883083ffd637366596197f5d512f7361befe, 0x33d121602bbced927226d65478eb51bcc27d49d5df7b9344296a5ae3ceb61d6f, 0xa8389a31ad555a9044d6b559b707d3a82c193e250aac4d2266feab5d427ba00), (0x10b16124a2e5951e12ee7ff193e999e5f7d5a9a6e05928713899973dfecbf2c0, 0x3e781c1c277b65182b62d8e327f5a7a534054ed447855a2c6735797c94537733, 0xfdab18f791c8c5bce77c2a51eda71c807fb0e7a8e0977fc46dbed58863496d8)]),
  (34870, [(0x386449015784a7a63799f15bbcd75890cfaa0775c46e4ddf38a595518537195d, 0x9a7d95da055cce3eefa46526070e06abfda2ea60a924a27d921ce1fbcb9c5d8, 0x2683f623cd628d9ee76964c8187b468112d936fd2f1ce5c2c0015a5c2de8c6cd), (0x29d64fc8ebbee64c6f7d8ace46e549b7af75e543d3c556baad48889c3a036ae1, 0x2a5e665028214efd79959ec31804d257a689a3f543c752ff77d0addaa791db0f, 0x16d70b4db4790839afcbe583736e3a3a6834207ee35a2cd6fe92c19c950fe7b4), (0x1123e3d1fe8366fdefe330f604f49b7f2e5187ccd23e2e0b3b6bfdbb0af56eef, 0x23f130a03a245749c182009c0b49da5b5fb1abf2c6c9ac4962d99ebc8f96af8a, 0xa762a5f1e923787c203b5fda04b5c84888d7274ff834c3587cb2077567feb6e), (0x4574f75c1595942728698d0f62dc9d794d7f0c7445c8272aaa1a2e065c833a0, 0x3007444a719327fcce66659f0b1d6ea216c78b1eb965b179d0d7b57784eab329, 0x3edf043d2bdfd5c6717b09ce47d9a3d39a3f84181b71c6582ca2e1f90faf3e0e), (0xf41992f2bb4c8e8d1da349bb61cfcc267453ae2ea0102a5615f5bd3997cb151, 0x285b45c92761a687c518671750c01669d9689d84597ca9ee10a8dd1f0dcdecfe, 0x10c8a4c328cacdf69fdc0e3329960fa2e741128d473f97b16b660606bbb975d0), (0x8ba5cd26313302bdf238d5645a419d2dabe9955ad102e45f30a4480ff2e1b7c, 0x2bf2524141eefbb36e72faf6bf29c23cfdd516c7286425d3cc6f6d046e92a652, 0xfb0f25191ffd912f86d2d1125191f12dcd4220fd5426228de9e13f56df61bba), (0x110a58536dd1282ad9d11454ba160081bfb82fb98998cd3bdffafdbc1f526279, 0x1f955a691a0177c3ed98964e97882660490b38dc0eea021f3ed441aa83456d58, 0x17f7f3691c00b8f093938515d0a318e41469347c155d6455389a0bc09ca2f852), (0x76073cea50b0302507d64440d56bb70761fe2ecbbf2303ba64f2964be550b5a, 0x20069f2750168ab6c6d41fe5e39bcfbcee16bf5a18d2bc2c10fcc0530f1a236a, 0x2acc5ec85dcd719c5745a1141a8d454cd248d33fe4dcff6f47a4c1d223fa352b)]),
  (23350, [(0x3f3b7dc3e41d56453f76fb32485664f862307479e939523af1ec9937c3c00dd0, 0x1ca4e5179af101e8e7b6259d38c349e70cec04f09b28d69af0b25d2fa25e5216, 0x36bdb7efcc039465c9ca2f31a3219713efecd4200a5684f0995ea4ad23f23ac5), (0x5e5652c160be23e5d32fb63fd4550546d47afb086c430641d4f6b314bb14a79, 0x97cca7a54cdf4bbe694bab5bcda7de2a84591892b6c2561bf82655fdff0b919, 0x513969e4332f1ab052debb180869506b48df9aea109b09a635bb58b84521139), (0x253352eb2f53addb1cb5c03cccfdb6344b444e292ecc3a65e9eb687bd3a11fea, 0x36323dd211d793a6732aecfe8d81ffda5da7513d16c516d22a7178a85cea1bc, 0x33cc647f40c33bbd895aa9833003c8da62d88e1ca475ce73b0e3d6ddb56f2efe), (0x20bf05a7ee5d39099008e05aa0cc53a2c24147a63453462d156a56f39ee39a3, 0x2977ade87b37fa358445470e80f93d8fdd8cb3e393b9a2c02de93a05012ae7b2, 0x226883cbc40f5a65e19884aeaa8869cb3cf526ed5593030cdc4ce9418cc6d758), (0x2dea26935ce42e97b903133fcc7499669c4e0f1d19e3e192633c2c56013d17fd, 0x3f7c56c6e70f1b8fe3fe7f151e9b9151468bb6a8066b710040237d6fc043bd55, 0xe3cfd9d43a3e7959767ceb3d95d6aec4d48fdd3fa667a643a23d0917d9b7163), (0x32e087d937bc0543a010134bde5485ac2cf0680f07470b3fd55a1461ff50816d, 0x2e5206ff9c7b583a2c2b0e7975ee31e57874682da435f05d20c2ffc15adfacb0, 0x236455206a315264c84b597d09276a23574cfa33e6dbe903c265228249b63713), (0xab700298ffc1920c13bc64a1ad867b73fa60f66856f9743912a3872c72bbac2, 0x38ca78b009faa8aaa70c193d82822fdbd873c1310c4b9befab2fd5bdef7b943c, 0x15583885698c425eed12a6d26318796b319bd050ba0d4807a51a3e0af1dfdf9d), (0x3d623a15d14001c0666e1dc00d795fa9454cad1a6266cb4774474fc832907d26, 0xff0a4702bb6e9fcc22bf3a23b48caf4321bff604bb12507af3976f3a49e3d9c, 0x1f4431c26afac00726806c0a81658cff0e5b3d1978cc1733e5bc1e16ee953eee)]),
  (216891, [(0x31ea2683e7f76dbde580f7c5cc142fa4e75b233c29b2c7b7c7eee7f139dfc0fc, 0x34845a72e47932b7ba33fe8c17c5802f0ceb05303dc14e92f11af6fab5eb953, 0x3de1eba730eb72871468e10ec4fe83021aeef7e91e6dcca87e7acf8fd2f6385), (0x1709f3a252327ab0824ecf53562d183e079268af9421e1c6e07fabf71183d09c, 0x23ade1b3cdd980a696a2b13751f649dcfa26eb6dd9af167b1a36f2046f32aa4a, 0x1fa26727c4020939f4f1af57e3e9088b6d2bb65de37083abe513bdae23d139e0), (0x1717912b081a4ea59c60ef84393940821922188c2afcc7dbb89ef399daae2011, 0x2cb7c81d0ab0f396160f9a73743801dec8c734fcdd211314789228e2a5cc6aef, 0x112a8eb26d65176e7672fd1e932abfca508c5faca34b3758fa7c7f81c9ae5b4c), (0x31ae4ef4dc071d78508bf1ba39d8a6c7a4e2c63017abd7ded3cbcf64b0ad4621, 0x29517ed4145d47961254aa34ebe0af6254a2d0760becdcc98a8abcea64f8fa13, 0x38937e56ff00f2c7d9dd506809c98173cab298bc589accbc44e7a2eae8bbde68), (0x2dca1ecf3ff0448bd023d04c2e3ef697865cf22257086eead7f24f90e704c9ba, 0x1b409fb3f5e9cefb763bc2146b43142ca932bc8e7fefc14623e46da36edbf849, 0x2baa1d01e18a9854177b6d40e2614cab5290cd894d18698fc20b9a4dce10dbbd), (0x30de842529245b66226d14225a5946f8be1cb8c26e93d1fe178ac4768d117be6, 0x7877c47300a232fb21659af7540cb970eec016ca3d27edfec503232b336bcba, 0x3ca255fa59a8ef0279a654b9f26396afb60100ea46cdc07c49bef9a5380248fd), (0x1d9599be5105dec40ca0aae7484f6d528d1ded111c353a51643a247cf36ac947, 0x121d7583956c512fe15f8c600356d766f161062130ecaa26ae75938c2175bac8, 0x39c3488d55ee02bdc3137846ba112721385f74ca2350e4bbbdc7a79c59adbca5), (0x50a9fca2a19f94c58b98908537b4c3129346415e616596861b4aed1513591c, 0x2d45443331877f49464f5ec10f2e11a0a351b927459a00604cc162dc9ba148ac, 0xd3063e0c9e5dc503d69a033296f23a86865e534024e1000aab10417a6aaab4b)]),
  (6656, [(0x21deea1e4af1062ba93efe0352efdc19ae955b26026863533a2e46316d1347f1, 0x121fc619b3e7fcda24ff8bd0cee17c9e2fafee35a0484cdb8cb50add6420dd1e, 0x2f32f8c96f4ac7a27151eb234cd6b71c0faadea060a2ccb90521c189b53536e4), (0x37b6fdd6f8e06b3f84186f8c6295d0aa3a9c3fbf522068037c924b01ffcfb4c3, 0x27c143325b9a1da03c4034f28ff3b3dda81e48cc481c80e359f790e0f79dbf14, 0x24adf2d1ff3b86a50a824e830e33eeb54bc6bb8cc812c9129745fb787a2e245e), (0xd57782426df875baae9e45497aa43642cf93602ff3d0aa9783a60067f8d7520, 0x1dc4d5ccc955082a92e45a6f3ab63a571712d705ebe9ec2a27ce2e79da9cb00f, 0x104eb815b19674a1ae45d3df0bfb300c54b181975b4d5d59776e48342b6c5667), (0x1a721dea38adb76f683eb807f3942e7fe8d8602de2cd00238120f656731172c7, 0x2d1daf6c39980ae37be753c42709f091994bfa836bfe6565b0a6560453e9e51f, 0x1e99308fd190f7c0b51a6ba250914dc37266d14f7bc7948a01fbb31feecdaa11), (0x1f9c7bdaf888300cdffd37dfc8d2f5c4d69f9af3a205a1f5b3768d159016482e, 0x1651a5822f09558293f048a36673fd0acd3efb5be76cb8c59721fc67e0c69d5e, 0x373bff2688f276794148c2b3917507885c62631298620502be23e5189b50a682), (0x1edc9a76d7a6c613e6d277d8a6164040b1173b0699fa5f78a9527c515c757bdb, 0x3f8c5813eb60758c0abf966618b81811a3d4b862a7eb09f792b6e75811b94115, 0x1c1ad9afd99209cd71dac8c1ccbad40bf7213a4dfd75615e6525f0fd6d1c4d46), (0x2081827362904bb531cf780d666743662d9372426b56fc009f7399aaedbffd65, 0x331b309a5b4556a0c520a6700ba3e4eab0f0992b930efc9de0a8f6fbc55cac74, 0x3ffe0f35a047fa8683b7c48d551344de8d573d1e4618540ac0070ca4a6450fac), (0x2915bbcf9f5b2713543689724a7e5c9aac53e501b30dd19b0ae5b753095879b8, 0x2c14b2f1dd6c8fae54762cf5e721327740201b04a21d86a5bbd29ff1407dd99d, 0x21921770bb9348488ab6d7a165bd32f613b61bb46a68a0a9dad4bbc6931b66b1)]),
  (38186, [(0x1b100273eabdc39ab6b930de7a1f07657123ee48ee9886a1bcd87f091f2f4a78, 0x2d35f8dd4cdcc48ea944d1cf7ec1206bcafe2f050e71456bc2722f62e1105e31, 0x20f9b5a65462c3d90a67f43331cb6c5bb8e706c1c40cba96436f5fccd9ddd5fa), (0xd4912695887008770a6ed9f20f809cd8f7c262feb8a71291eced720b548cd04, 0x14cd65c5b23c658c3a06fdb24f6f2e737c0d4db1b4d76e6df5b73df3ea23086e, 0x2837984862e7b11d46b51c62ade7bb68e13f7608f9f5041434732e552b97d52b), (0x345e0d7017f86fc5871d04d8efbac3aef4668913ed333982a6b7687425435ad5, 0x3282e34abc605bd955b3baa53ae89fbd75a3673fa384e4eaba21001c1599ec9b, 0x27301c0a1c9681d612dbb5927230e391d263b6e7d881ab480f113e348864637d), (0x506517bae42c45d812b7f975aefa864eec994bbe6276e1422adfa3dd19e86b5, 0x2153e51a44aef81cd647727307b629cbab3b3d73690794ceb669cc077b4aebd2, 0x24716eb6de500ea665e72ca67582c5677964000d59a115baebf91f36abae89fd), (0x3682974d8a617143bc6f1b078e07cee567d7524a514489e951c1f6b1b85d48e7, 0x3189de729f69af7bad41a73b6bf233f51e984bfc45d7baf0d36bdbb4cacac6d2, 0x21a5345ae3e14e6fceabc83394a8e966037949a9ef645277cdd7750391b3b87f), (0x33b0656650f42acae25c2a5f019cccd9e0bea2a7cdb41b5395aec5c8811b901c, 0x12bea7541cb7d250812e3dafb7d997ac645dbf5152e6f54f20ce1fa740bc290c, 0x1008e567f481268e7c10b8e5065f537bb32c1a2cf7b41f52f2d31b51c13ed82), (0x69df71f3c6f4fb8459cb95db90a45e6ab5f4008451ccedd8b5295b943a10c81, 0x33cfaada41f7b5c1a0c95589f5deb4c218286410875176d553fc7b9b81659771, 0x2036cc0737870a20faf36be0fc69b915734b2ef599af1af3a51f8728da1b9aa2), (0xc11e276a569122ce7fa2eecdd11e0087486d3fb1130dc414c9426d5bad65bb5, 0x272f8028ffcde3126c9366db482d58606359b7b68e61f58cd0aec1a1aa58639b, 0x1147b42c5ca7b973784463aed0bc0e5a0c21028a236fcb867a6fecd61285034b)]),
  (119457, [(0x64f0b0fdee0b7c330e41fdfd7c797fc79b5a3a591e877fc82fb4bd25e0f41f2, 0x13d6939fe18f1f24792c2ccf0b84920f41b5ec0e3ff0fc50d2a8324875322499, 0x38a5151a8fa15bf332d4e24e456055c2c024c885de6b1c6602550e339f2bf728), (0x3a04b3dc9e01d92b58a13b2d69a67fc743b5d0e4632fcd9a894f7f9316795222, 0x1ab08a436bedc540fb0bb40dba35b2f4bcb27e726b12fdbf2f9b995d7d0e61b1, 0x21730dc94aa134b13da7d7c167376fd5451853841af678dd39ce349bad2c7581), (0xa560194528c9c80a146c48e9adca8d362e73a8f0232e8ee8559600342855feb, 0x2c3ac98918005fc7a59808c4a75a506db6b9b557a1d138de377c1d301845b28a, 0x1a72a3eb765c107fa74763fa4ba5b4d356c5f90938bd5f6dc454c7230d11aed1), (0x14ad7a07f90577338a05f060d36b53c155161080f0e74fcca3315fc88142d97, 0x2e4e67eb1c2431501a571d4f51e58cc04cda72ff062b48583dc210b0cceb7255, 0x2002ce3e03db1256ad7c3226bf8c570a4e762223010ed7e0b5884505bfdf0206), (0x2c91a637fa8d3ba227451c47b701250592b4229060482f59fa898eb164d0a75, 0x2958491fbbc49068e6f91280a03d98ebc95fd7d1232dd210f2a0727332458613, 0x5bb61be3c479aec47269e8baff610b03ff99235f023378032a48438fa1c6384), (0x2e275074a5abd628966c56fea7e74bb624f44f66681bf46b81ebff4c7cdc72b4, 0xa4483c832e5e3b19b4c692095277537d35a8c010bcbe2377682ca8e4c862f68, 0x1050e86ab900a7cae2a5164f155d792eaa2ab9c63ddc9a37aa8c3583f7aa6631), (0x3d7579fa88ce3afb4496b10c8dcd6dee9892eafaab4d31d9a30b847f15bc9e44, 0xe7f43862ba76f139f21390bc46f6fca5044ccc3ea648be7f91c825ec1c68428, 0x301ab0ace41c5b945b7465f8f153a5a2a5654ef1444edf3a3c03166a6e3b216b), (0x1f46b136a76efc4986f114a287003184d12f111631079408fa671e484f113062, 0x39209fdfca36a7394f9c8f96bf5b76938a6847a0e5bffe7146f490f8b3efd65a, 0x104549e245f6503a34371599722de1871168daf04f9a460ccdb5ad9842999836)]),
  (14327, [(0x21a9e67035400889cfada8d7acc1da1e13cea889a0636bb7958a2e3f6af8b1b7, 0xce83675475d878e5953296b22c494d10f3df8dcb572730664a2b7ac4a6c4bba, 0x48a2a9d34553d2fcb510ac8a5d5366b9fdf4714fac51f9c0ba13633364c6a76), (0x37eb5fbc04b93ce2495d729f04ab7ed503311ce8e2a4853a19b698715c65124d, 0x38e9c0fdeeab4714b2b930a8e328487ee2900ad7ff3700bbbca0a67a0fca4dae, 0x11d01cb93ea15b673f3f1c0c9710b432ca3b64c5874ffb2d0dd105c1fd032437), (0x12417ab51d43da74bad4fb6fe53a622fc13c27aeaaf98f5736255c85e3911900, 0x35ed2e25a545b5fc9b6cf521b5e2888cb650da7e5a5b32ae34476ea91ad7bcdf, 0x4e8e4cd4628eb4ad4b79e2773e0e230f328ddf20324f3acb25cdd0685759faa), (0x207b93fa3400c7daca3eae706a53c6f8070b004853c8c1584219c30d86cc4023, 0x2eab151ed0f42a70892850a41ac5fdce2dd3a90cd3931fe4dda7f3e78a8bd510, 0x15a58c484c42a582497b644fe4a372470ad35ee79b132d14b98a304541e0452e), (0x2fc5168709c97cf7bb1cebb7640a2ccc2ed1125b5e64ea78cc32e175342f4d7d, 0x2714928fbbcb54fdd6c68863dd6851961e233f6fb2ab32d762d2cadff9ed73f7, 0x1c36c6f08c12dda44500ed7212eff278bbbffbd1a9510bfb0fe6794598980dfb), (0x1f531aa11859ca7806eebc0ea16b48cd82059f0cc92353d96bda7ae83dc3a108, 0x1f7219767a115b73d4793791cf57f252ec318ffbe11bbcf7777c9b38405b7aec, 0x1e8a4fbed829ebb2292a951d9e686a68627c2017e909604b4bb8662306916178), (0x39c5f42be7aa99d335672f781e904cf377cdaf4e4d1456b40d3c46c7a43cffe6, 0xf9490783948bf251d2fb564c2f514042f798668a7f1d8b487d9dac47b11585b, 0x157bc7b607cb035f26c998eab54ae263028a63a38100ff2ece7d8aa403b31cba), (0x3995bece8d82ab1764eb8656e2c6e18e5bc828309fbb9714460700718215ff00, 0xd9d691773393fedd3fae09b9b6c575842fc132c7da58928916cdf5eb3ed3e09, 0x2edfac2dc2b6b3961475851075225922bec51196df8078aabb76f2edaa27727b)])]

def windowRows5 : List WindowRow := [
  (48142, [(0x25c7871f4c4576938d70ac54d46a9e4e6efbca43eb19ffb1a86c32998a1286fb, 0x28302d1606f120f62ff3bd65f4b60b2346ada4f5381e78325d6bed17af9b8066, 0xbfdb8cf02378375162f6fb36f88f2c336c408be9fe761b2b1287a410eec9579), (0x266a2898df2435cd868d43f02591d88b3378601a28abf3cd54ca4a840103c49b, 0x28156c3d09ef0f19c34c9cda0597c851c48031b403974b1e7e2267605347ce59, 0x1c311e941863d2df5394f11b4feb48eb682bb58fd2ebc17b9fde6e1f7f815c2), (0xe29911c7d4dbabe0f02835de00f28226635ad1826bfc1011e58cdc8ca78ce38, 0x21ef87ab3238e1a8c7989219135caef1c0c8d757fe2c37136da785f7a813d43e, 0x35fdebe91d4b847e21111537839116dd653ab53eff4a243f35c56796dce370e7), (0x2f5af427b1957b7deba8a6e01587421bae42fb5303a52bc371d25cb03eea47af, 0x376e1296521b51cc38b1c95f2e1fde4d4b45fb59076fa987a22ca1c7393e9efa, 0x3195b5abffd37728981380d1a1f2f2e6c4f3ba13493af968c13a332c7575e3fb), (0x235a0ae59e94bcd8798a52ac8e8cfe2103bfbd3e99cb6afa091f1ff4adac8c0, 0x365d9a10248faed89eacaf7ed684c58220fcca752f11b532935ec059bbfc80bd, 0x160e65930b84dcc401b3fcd0bfcf2b457832b9ae8c85a56bcec68324273997c0), (0x2a0599ede4415ba64e62bf236b3627d2da4e9b2d543b032ecbf48b8dbae028fb, 0x38478114e1d3eeec2e262af7dadf20b07fd4f5c81ed3224bf14009ad9ccb701, 0x272a1db9f5767d13649e7293fabd069bd26802db921b21335001e0261a610392), (0x36e1896d21a58a379e59e5e592f8829b9ee0cd7eb356c5969d99a2e5ee522699, 0x198aee0b0c999e328701f23115a970cdd6c2e7893b7548794d2841e51a44c58a, 0x1286d21d9b4ac088595de86668e51ad09e47c143abf6477218536b1aac683d3c), (0x30f07a608aa44d011bc73c727f065bbd134d363f4631cd34c2a0328790169fb8, 0x155dc4b484e213c8cfb267a3d47419faf840eeb49f68ea692c9db1e36ab8cc90, 0xd8eeff5c7edba8f4b1e857572550663918e66d587607c2fb625ec1fc6fdd96e)]),
  (8340, [(0x2cc941896ed6f06911902e857eceabbcf711c2fb1200fd5df98cd69b1703f4f5, 0x19eddcb22297f55ba53ef595456e5fdf099b3e1875f51633aa87b86ae7b084f8, 0x16b1f6f3b63430671888478d704809ef398f7060385e580b04711c778c1b7ebf), (0x1e5ead114b1cd3cab804d032a3a775d91acee5baf9c962ad9d9f253a6f4f0add, 0xb82b2f1c8ecaccd9b8710e884c7d50c98a8a8fe72a8cf688c2e0b69b24285c6, 0x1a10352bd7b050e0537bc32a265000453c8bbdcaab6c9958034390e97ebe8966), (0x35e5640ebba16b351706b2cc10a47ee4e1eb49442732bc2655da66ee263ab445, 0xfee1ea8ece0c2a29366e62244e183d10da7167c17811fc8c727bc1e94b8557a, 0x1d6696641dd0cea39c74ab4ea1f0e6053cf8baabe6fcfbd6420cd1f5fb868aa1), (0xe57cef0164a0595a79ded127b0794d8e77dd3aec7e25eb2e6fd9a8e486d2b7e, 0x62f997fdbcd59219d3a174450f7ec2cf283197c96836f873de12c98ffc7466c, 0xe2a14e2d21cc8c52f0d35def59629204c5b8721138e9c3c0a07402355afd08d), (0xe33ef39f443788e6c5d1a0ded3ce5ae4f7bc96bc155395a7fb2aab95bb343e2, 0x2c85c153fd8131dab300d6dea478db5bb4bc8b887357b240c52c0756a27061c9, 0x15ca0083c07f39b823e34ffd82fb1b95cf82d22b3b7d4cc93a60ab7317131996), (0x398e2eebbea65c7e2515cf087ed21e4b72ade85e990cae08c5a504405df0cb64, 0x2ba86dea972591524f6b1ca886cc03c45830dce23de8551a4b6468881cd5a56e, 0x229d1574e0ae71335faaad57c1b664e3620624713245cf9e7a3cf4837d577bda), (0x3450b26473918ec659fe0754827d8426c97300ecd1e3d3d217b0000f64486c13, 0xaab45113aed0c4d5fd896ee72aca9edbac1318c6e6c5e6ad9e3d5938635c097, 0x14df39703870954d2373112a02f3b19a823ccb137a9d150bc8899ecd8923df7), (0x1a56ea9297238f378224828444a5d7d6b0d6eaf94732ed0946841869341be97d, 0x202bfb7fa452f931519c439261dc00b16dd1a59687b19804f5b690c3d1a9b0d7, 0x1f05c64c649be7da1e4db2e1ad4a2f3ef5ee72fc15d87d83afab54ee9db2a4fb)]),
  (38666, [(0x11b5693346d8e1810d79d32cce76fe9fc5f213c8a6709ef8a6eeff2feb16050f, 0x2ee3cd9d52190a26a7d04a310fdb8587f8efb4a424546e821950250417ecf902, 0x3b88af50dcf9bb9c894d3bccba6dee5e9c8bc4c112f6ae53b6cabc77a9af710b), (0x3e863384dfa381770f69980d288b9c8a3761d00a6d7e75dba4089d0cac62747e, 0x1a0b03a232f87cffccf49669e06d5641c529e4c9a7aa488a001b31a2d7cdd830, 0xb0dbe2895c81ea334108c5484078ecca7b2b78fc662e4d03f721fa9a25b1b10), (0x265539ed99d17261abcc8f4417d317809c4527a0817ab523f9882dad690ad70e, 0x219c0c975009d8b7c64bfd21e8cbae289508abe7d9e65a50dec6c69e9d6adbdd, 0x161c58050ec7e4104eb4f0683271ec64f90cf55d6cf5cb67a7261bd2ebbcbea5), (0x2cfbfa13cd0cbeaea6f62fb53c3d053b66dd030e997f48dc98e48b4a3cded4c8, 0x2880e2f1bb8e1302a6383069abf2ccec451e935c0196c18646e02af8acb3ccc, 0x365d0536e610e42a3a2a2b038c86ae29da36d67b8f2fa1d360b70a50e3be213), (0x35599c41a24bdc6459dc8aa313a9675c2a04602ee672da5d2cef4f96684b2e38, 0x4d327a71bb23dd54044bbf886a07aa663f25c2554c28e2f10fa56ef74b2ab25, 0x11c9d26ba4ad4b3c239f0078911db6f0a72e0c5b66e23ed75c97ab241335fabc), (0x5376a8c15bbd6eef8c10826d285aa3a32a34455f81484b0a414371581cf5c37, 0x3c7e03b88924cbbce46981773d008aa8ea031b202329fe37231d63f275f7bcc1, 0x1f84744b4acdec43f5e2839091311b37ebf767aa5f58b0d8b532aabf32a3db37), (0xdf1752cd9acea3164d272b231f424e7848775cdf0fa5b637c224de331357aa8, 0x10adf9d1b90372e2dd1089123ba8562a32ef27bf4b8cd1f5b68a412f461a76a4, 0x29fc836725156f4e44ff149658139d985177fb282990bb01fe15a332e19b2f6e), (0x25a5cb0abc6dee7c7216f5706bd21499e50e03096ee0c568e90603d25746cf4e, 0x191fc580aa9041fbc0583ff1b463af1f52dbde06503b292f259423bf7457d3cf, 0x330ed96bd6f1fcca6c828d183870ade90f4ad63a428933bafbf7392ff333e1a7)]),
  (196327, [(0x346e5460a55cc6a721613f1345518c3d00bcd89273ba06bd3df9609befa81383, 0x1de433921a32f902d46d37239dfcfac9fcbece8edffa1ad97dc94c47d4765a76, 0x166ec699bff52e164e3bb2ae07271b0ba883011f9bd962bf6ad070216cb47866), (0x25c24b9562155a6bf798871a37420c7243854a0926c2ef11d7c2b3814294701f, 0x14d71f89d858544282f5636275929282597e6c08b04d4f8fdb6fed43d917aae4, 0x18b2706b2c9cc1134e172617fbeeb41f72e0e3db273562f9f2f8b7b0bf2f962a), (0x2c079b87bb9e3cbb3b4b1d23d1d8b4602b5769be0431f5a759b0c50fbd6f06fa, 0x12735021be1708775705170053e8feba27a2613fecf25a41ecb00b88cd8512e8, 0x1c2ab2ee73bf7427f923188703abfd1824c1343029a14a043a0093442a7d340a), (0x2976d0788eae1d97af57c285fe680472af340fcbac6cc0338d5eabcee697d906, 0x2562c6b57e4373ce00411945c35fdc566e77c29fda0f47ea79b0dbb4cab7cf84, 0x3793a6c992277b1fae5d43fd9a0e5c575f1fe4cd57a5a329a9ca3e67b01087bf), (0x184e273787292b7e50ab9420d531eea7a95bb238f10d7ccdfa0ef6f78d41d5c4, 0x27fa7d18df625aeabded993526497c32e261e26a11f7b9c0cb3921ee26c7137c, 0x29b9a61aa3dbc656810eecdc6488958be6d8580176bf82b452dc602d282bfd97), (0x2f5cc006c70c86e89306e8290b41d8b46aa3b3210c917e0a66a0f6be3fffe5a9, 0x63abc38eb40b59913e35f6c46484bd8cb1fca7c948655239e5b3919781582c9, 0x112b9b16fc4d08f2ee6d6ed97f63a353cbce975c300320da6abdbde47209dbf), (0x9a66610c4a6aaa4c7f109d73a8fed2d1eb67264a07d37e61e59ebdf6abd9f22, 0x263da779f8e7a318cf73569bdce6b1e7cd861568c2ca8090d0f03ca5e8e6b746, 0x34cd3dd08b0242ace0397cea4a5a592dd17de3441ca95cca5b73a356caa22561), (0x1ce29a413fd4b76fde1fa2eaf86e4b3c623b38bd66b5e5dc1ad70698dc96e2e6, 0x3251bd2d0e05bc5df2133d38e36b61bf435d640132ef84dd308eb3365293c52e, 0x1c19833de707ddab2eb2e9927cba57505ab8d6e7b30dcdb75c5c6aa8c3914a29)]),
  (39318, [(0x10dd8e42f4ff08769dc6aabea4b34c02e1b905c6ee6557eab759945014c71ed9, 0x10be95128ead27dc5d00388737af133fce0eeaf6f7adcbc012cf3cb6d0fd4227, 0x19170224226ee19e251f94a47634b5a52ecbb7091fd6f9e9618d127f0f3fafbf), (0x19b7a1668a30194d1d43170043752f1d7230dcfadccadc3738b2a85bc0eec70a, 0x1fdaeb41a8e691319be3282b71ca475d11427e3c15480ab375570ce3eced19e6, 0xd82dd18a630e5f359dc1c539f71d6a29a7d8df243976db66b886bc0e8cc46f), (0x31b72ff1fcfd5261f43e460d6ead3ac7ff84e2d6ff59d9717ef99ec84e7b0904, 0x2b772ccbae9d914f10a72a41ca23767a3548fe45a4c67f309bd88cf5255ed65d, 0x64fd277eea58cf7e51698400a44e82b5108f01c63be945cb3a5d4fd61880605), (0x3f37913f7d49bb3c0a51026b42e139517de8c9a89a258faa3ee4815bbe452489, 0x3e2dfa3d9c8fd5591b0bd7828ac094ade4756046681deb55b3076b6d6ab20962, 0x3a32a0695ed8990515d67955eabdd4bcbd6e3577cffc9e9470001afe4cf30f5c), (0x120a656f3057fff93dc4fd6e1be1534faa8a4f230415bde77832554761b3e8f0, 0x33b42ac11d8863b81839021c0583c3002f519c0ad80c8d0f02d5ccc3665fa9d3, 0x28f16a9dca3300e42bf48c78b0569e2e0518e3058a485593bdf78ab6908b1482), (0x120415c6f52d35f63997f8d8af8098ed754dcda52f8cbad236112b2af4ad0d4d, 0x3f7b89e98c9b039d640805f57d2ba908ef7b8fc8b5d5404b5c93e65f93642305, 0x2610d96c58705673356ae4611101b78d70fb37da0758c8eb1d683454edaa02c7), (0xbba60c420c32db5591983e5c30664f471fe58986bed2015afd0972f499b3cb2, 0xb840ab0078b49d741984ca56afacd3a5b17067e5174bf18be5ead862ea4803, 0x33093a8b0f5111ffa771c2e75d552d6584aee6828326bf9f3eefd95e5a8dcc0e), (0x200b1e5c0ac82d84d4cfcddbe7b2af2cb12a6f7c6fd859db66050ba9b68676f4, 0x2d81e32daf5aec3729e263078c833c19f1d1c9bd9f7326058563d4b7b52c6dc8, 0x16254152e47ebcdd9553e80e1f72f7cff3f1a8e853fb87ab759ba602909a6bbb)]),
  (236217, [(0xa5b598f4be87226728a56363119ad03d08d7851fe5da844d9ad0591bd615dd3, 0x1ee8eae3117965fcbe80562248ea16c57f26121a3883d7aaa04a376350cc7819, 0x123de01dcdaaef8cd9c6e35c9c15115e349f03bb2f4d738262f4e5a743eea4ae), (0x1aa2a762c82abaa3423c58683224e4327db359bbea3fc47fa2ef3ebc46063767, 0xd261a42568f876675d345179c617ee947da70a1968f15882d0e8c1e18702957, 0x2f86b9a8735bfcd1fb0a05bf3e1c569e6741916a89132b896ef96061edadedbd), (0x1eb393d5e709cd51bb2b90fbc1e665d41e95b10aced8b70b324d1ffaaa79eeed, 0x215036400b170b520fc1083b7e9dff323464a18fff4024401e973fdee184becc, 0x177d8b3faadccbcfbc7d995bc809c09dd63da662654905f282479aadbbd0cb14), (0x56399de945de2523a2c93efe67690e5e0dfed4b016c799e614408ba8a8ab261, 0x347a0cd9cfbaebd31dad51cf2437fa26047dfac8a870a1c479f5b18cc2dc1978, 0x2ce59b22469d98b9b88bc247a4d4768b0ff26e7704b17855dec9970964625cf7), (0x2e0848668c81df6951e104a7b66cbfc1641ba94f2f04bb77cd645666796a999d, 0x265f788f97170637512fed70c3459e440294a4d6d73e7331aebbb0bba72f09c2, 0x3bbb4db042c2a17bf0dd0d92f6050357091a18ed483b175dd7a629c46250f7b4), (0x1c47e426cbdeafe2497dd47211b6a18266b201af2d0cef6d2875a8402b8ea210, 0x2cfd667abe2070059b4a4fb274dcfb1ef402313f3f7853d2a4458183311301c5, 0xf0b35a2c79e2252bf9af0e7bc3a507f829bdb8170ebbb894cc462dd1e7be2a6), (0x3a00ad13c0fae13aaf4083eb2eab27d9bf86c1d6386415e575a2088345521969, 0xdebd49e6a4e7fa13bb2d95bd4047cb776fd199289efa75f8dba71d9e5955089, 0x315920f7b2dab34622a31719698966bc6f44b93425485c256ab9b4e2c14cb6ad), (0x3d05f908a8c5355b0b19ad5a430f864a98157538c0355846d1e1d9a31dd19fc2, 0x175016be83b62636cd1a704f650808d6cce492c08d68295ea1a5ee9097a61148, 0x381a3ec1d59aae3771d71a10ad5d205424dc7ceea95d2b1542a7ebb6c6cebb29)]),
  (45314, [(0x1c48c363fa57926a623e992d71c14638031d2a2ea1c6ac0b67ba904a682ea51f, 0x31024ca04278be529dc6951439219ab6e8594bf31b7b5f67ca35cce48a3aff, 0x87fc295150d071ad6e19cb21f7e740ab913eecf51c11b751e62018bb9c585a1), (0x36ea6174c7557478c536a57feb5bc79fcf707f2716936c874a6f0487058eea64, 0x121beaa907e83bb4718ee59a3aa6bc764774998b28ede07daa309c760f8f8698, 0x3c76a335c777774b1a7dbbc4f24a36d2f64c022f19461f776d86ba4c764195f2), (0x13cd6974da46c8f76aa7c38a2e0c11e02fe8d7bd3d96465b8b10243b3a574c3a, 0x35add98c737f84e52131f332d6280eb6c443d1a3a4acf1d78c5ec8dab8d679e, 0xc0155a9bc7a13ef71541e774ad9c5dfdff64eac5545d7aeb71f41dc43b346e8), (0x25c4e297ffa75034a8f85370693f77d571a8f0201886db68c5170c45b405279d, 0x1a9905e1fbf8f4c23833b56edd53c49f9b94ec193772a836cb5c728c4c41794d, 0x25783b78661c38e0eacc1f2292c59f5929863a752f7d202150d2796bba30d10e), (0xdc643f0e4b444eb976a01e0bf1d2c7b4a0f1872200e7bc5ee0268ca564eebb7, 0xf7e555564044bd129a6e3fe2b089956342591fed4b252d32cec0cb6c6cd3a71, 0x304988e502ea68e0f6fafe5e4889f09d54fa47458c9d6e213988d810cc966548), (0x67434405f6ea39d8a00786e8af04d4810d9ebd833afb67bad0a30ac2ae4cbf0, 0x21eea800fcfbbb948229f5da9d77aa99c1341e41b11c24673f1d1e09da5cc354, 0xd61eb44813c96e69d7b3f4e25b2dc1caedec2e990232d5844e289d6d80e53e4), (0x1abe160e677251ec2e0ec4a9f297b349f079cc970a3a57780655d40a63874dfa, 0x22888b11daaf3f24acf8571450de4e3929ca17d68caf06d5b03abaa4b4c2e0d3, 0x26e5a80b3b01c53a63b36aee71b7f4cac1611dd0957ebd3b16493d89328ebea7), (0x2199438c0025aa53af4abc31b7d1cded0fe1540f5bb3a2d43900e41989d5d15, 0x1928e6e7d41700082e98043d762ac1a2518a541ed13f026379eae066da7e7638, 0xdc03a1250e099e7f7c7e852fa6d2424c6f9e376fd3171655eae84385fd8e871)]),
  (25824, [(0x2ddc8cde4fb108065cdb56d9407de399cca3215803334852478fa927c21fa538, 0x108d6cb5ea5d23d493025f2f3c6cc291bd1d4a37c68df2c3142250f846ffba09, 0x333d4c585f97a466490399a9a324d7d118b62a1899c283d6bbb42a86021ce1b), (0x4500afc8f85d2de515f88400d1334f0ea015e9f5e55b703000c0197c2433c4d, 0x30981b2205a17b630280f7a794b4a5bf12cf09da16df6876ca899edd65c383ec, 0x297a9d2a8af4229c9a408abc8d2c09d73ba86e9f0e9e95eee57acb1a102e4458), (0xf75984fb317afcb57b254689e28ec25c246f36b57ced4aaea85e29904fd4e4, 0x366d873ea7855b499255b030a86431c28c8287eb15a99ba92f3e3f6ec99169b0, 0x26361db3613b6630e04ad5a391270d4837f34ca98be70af1931d7aa617a47bf7), (0xafcee207dd1fe2060a4638fc49281cd7e664b18954b82840408353f981897fb, 0x163b9c85e3a6f4fc537de8d57ea4428eae2ab16b40ba11441c9c512ebf1687ac, 0x142580e1d8fb83673fa262c819e240f3e68e947916f1bd13e5149dcb7cee820b), (0x22a111c0c5667ae334bbcd04f30b48701372e95e1111e7bd970a4a48340ed32f, 0x319b8059fdc2e246ec9dfff2b8d94e27bc13e03a081b8acdd75a1228552488a2, 0x34c76b03833dda04d72592ef9e08b80340127dde7db8cfd348157027f3e238be), (0x3a6ce59d5ed9f45b933bf890e5d0b2bfd5cf8b37725106154e00f478bcebce06, 0x2ee5e4f61225aff96264a0c4a2e29b2b94d2fdcf0eab21face6e2f921b3cd53e, 0x3fbdbf2ea9cd944901cb1b0e3dd80770b39725256e413e3bd62ed355e450d964), (0x14ae1e1ff848317f631ba29902ff2742be05f28dea67ee0782289b1fa6572026, 0x381a2a501872c53e0ddb6926f3b0e488f3b5fe4b16d4bc733bb879a3d45fcaab, 0x12d2766f29073005379b61d085269fd78f52c1dececee5c641c029959aca7e49), (0x1eb61237a26007ebb18063b37449118441a7b4d757131ee8593ff5fed02b15fc, 0x2f71c2642f96354374f5f86fe1880f6f85aba67d3996fbc71bb0051c230bdfd, 0x290b06040b99a545e1c26bd3461dbe2971e96ac59c54582cc7ccd63cefb1b106)]),
  (201273, [(0x13156fc2f811b4818af9a808bb760c43d51244868b67d6d9c77ddd232180dea4, 0x327c19b9546348620100e8dd31e4f9f26686be6e30e6cba261f659e63fb7d782, 0x2ce66b0ac830ed2736e9e6254d361e1e2b5d99ad8a09cedf6926f260249ebb6e), (0x7f8fae0d928daab20658cb4139662c9fb259bb75acdf2e5f9844ce25647e675, 0x327a66933d7c84150f9181cfe7e5affec48eeec20db5aaf35af78a8299b65565, 0xa326676c9eb744723ac7cdd4e9790c01396a1af63794ea8c9f7c0313908004), (0x20b07f8a75a4c551ec683995763a64dc71c431595c12672e8b00147930a4e0af, 0x206f9ec5516638c715acb93a7f28dc83fb9c6c4a2519512cbbe35d9f19386e1b, 0xf23e7a63f1549baa9a7229478d654b4c540d83c2d62e23ecb7ae22d1ced4321), (0x184fd9e716d8753af31d946b895606189f5de0b80a40dd02a1c7b3855a44c254, 0x231023f8ee4be6c2663784eb8e0ac14af82eb4103a3a13fc7f6e650fc3a25f43, 0xfe39cd75ef1d971dd038fd7ec1c9b8cd1a243fce0589d2be0b5a3a4b296041e), (0x1b2894a10bd94691cffc1ba8810072a41cb6b69fe15d5ad58c9f21d9fbe8cb65, 0x1ad14ef2d07d6c34242ffadbb4edfaa6d3c5bef37856cad7dadb24cc468a05cd, 0xf353feaa7a7ada33b055b63c527602c4a0b3c5e2d5c325372e3beb20a0da2d5), (0x1d5da8c55d16743aea1a7a90996bfe9419f5ae56edb9834f13d82257e0b54a0d, 0x3db252183fe2d6fbfde29d4ef831e29f55ea797a20113b1df5a27b86618720c1, 0x28261fa1f7fabe1f51df961369bc77364ffef6a8d1672751757072c0b5c69d3d), (0x5eb2f38d52754cfe722bb5e2fcc890154b8355375d632d08c71223191048ce1, 0x29f6f94753d1cd7baaae43a4166192a301e106f4b46b920d438bf8d07e71b4cb, 0x21fa7a5b445488a7442bb30bb540cf93733e26e2b471c1d70fbdc6fb7c586f81), (0x199cdb0d53aa3c62777d6bbc82b0a15e9b9733a93cfb179270fcef6fc9c52ac9, 0x2cbc3baa635caa1615b3c14b8acec5615ce95601e9d2f35037d48e7a8a54943f, 0x30f176040ba6efd965912d03c882aeec50ae428e74b9efa3c5e9b41c0b284c75)]),
  (246768, [(0x1a1da3d65bd5f5366c70194840a02bf76d2485e9b8f8237f804e2d738fc02e87, 0x379f26efeab541c09670a8c44358f1909f56a22b035cee2bd7845e859050de11, 0x2c7671b0d3c414881e355d2fbb69037a63e1f7ed7b05f1ac0eae831717d1fc84), (0x250ae08f33a30ce2dd666745c035e49fdc7249fddd67172d0e8e0f1668d074e6, 0x22d176122557f093eeef9eb8d2f265cd1fb1e0d8ac217848a2bcf0a058c5ddb9, 0x2088abb5ee6b06b48c13282d5e2e92b12c00f07e42b9d3a73bb706b49dd01e25), (0x23a09f51e914fbaeb9fd9deb85dd3f1b57fca45540eacf08c5e63999505c1c97, 0x1740b79670b939b2028aa677a5d4663724a25f4bcca67f464876bb7f6952a229, 0x20b7c4e3e2ec8db537a4af20507739219e226c46d4f5e3565db43b29ebdfb933), (0x15d8db928543b83e3860ac7a002ee7a2bc528a425232cd64d689967f04c56715, 0x13863df810c496499fa23b2b61d88909c65c0cbe3c07fcd41b5d00995880c20, 0x9d1fd37c6c73b61a2480314f2cbda8bb16020517e5cfaf828797551caa031bc), (0x3c7d46452d14a0c116fdab6193fba802ca898e5efd5774baeb01bac90259b2cd, 0x2338cd452170fb489b64cca14178f6bc0af9eb1cfd12c81f51b3ea9bd24119e7, 0x20fdf65f58f29dbdecc666a1e36d94479d40fc7a286926a325562a6af3d2d36a), (0x4c159bfaf115f5f935e7b13b98219d068651e291375711f3126eda25ee7465a, 0xf5c060ddb1119e76438fa4a67b5448e0e277c95b581dd0a57cc29463947c793, 0x1cdb5db7ee442ceda83ae7a9d747694d62a293dcdf44a64d9cf3eb71987e8ffb), (0x10395fcb02e60e09b87eccae2993bffb42dd1bb77af97a1904598f43256dd83a, 0x26681e4e5e47ef17d459e211f6514c79e8a1040fd38ff23f000dc63137137c44, 0x196da9343e9eb9b12ba1de2fbbcec7b2cbec70655e788de59cf32c559f109b3c), (0x38a1f9a77913f9e3829be88b69c5707c5bd2a1fc935a494d83f01205c5da1523, 0x2229ad8aa582584a9afbf31c2cb9f9969f3d0c6a8ca2caa073ce0879a1343458, 0x1c9c1c63b28e1b838c85617ac51ed937a2fdc575464c12642fac51782070703d)])]

def windowRows6 : List WindowRow := [
  (146377, [(0x20d5e7ea001ec6fee08fc92d7986ac4516d558a0e9e6e7fedad007b359388ee8, 0xff40db48f0ace93b9e360df3edfa7a1026d79727744253c5813d9feb1ad785b, 0x2466baf3c341f93973af93c617c7768d8db3c869165a8d9290ce6f1821eca488), (0x2f8bda0bd5d99981f8bb909794ab3071eafe91d74fdee4c3b3b49969ae7fc2b1, 0x3ac807fda988baa9c3b84203bf5aaf5d461ada6f632f7e313c736d711ab347aa, 0x2fe4b63bce4345b6ada6fa54883c70bbe28727390cb0e4629fa32d446d185212), (0x104a8788af7d251aaab003b78c2e98c1215d7a551cf45ec2621cc431b36ee472, 0xa2f8560494d5c697b4dcc5a0028bac6ed9bcfe45383f73aac09c6829c04575f, 0x118eb810a5f9066e4674c333e54f49044dd33f00dbc9398367e48e772e71961f), (0x20315334879cf74d80914a6e29e1574d7641bbe0709aecd3fd13f3c15ab93441, 0x20904743d212027a30e47d2d9ce296a5fa166875654bef72f3f844362ebc0497, 0x2539c28c455b720ce50df5d133c16307099120749a5a253beb36219651f6d1ae), (0x4dbe0c5cdbe36aa3ab97b5f7ac71cf9c9b6a175d153c2d8c0b161271188b681, 0x6db0ad7c6505a07ad5f1510f41b4df3c2b0a7317297bf41815dcb18fa188987, 0x2c89950bf528bc3312fe617ce996583a145c35358a38e08999b87c65d02574d8), (0xcfb1dff6ec4f73ff3e277bffaa23f1cb561df77716f5561886b6df8e6d9a12b, 0x3b2ea31d250281dbb8dbb70e9bb0090d674e38297d11c9a8e4da278a35d4865, 0x397f00968f1b8d06bf36d708ffca41281a5ee3d7c37d17043b209525d1f8bc44), (0xb35fea9e76523ce178d697b160010edf6c311ffd2ce93f1642181a993e269a9, 0x247282928cd2e0cc5334e827f14415fd20e13361fef37c754544ffce1e4ee825, 0x9045bfcf582cc790dc97ecfaab9480626024d1a2e3178fa1761aadba9606bf2), (0x373f004972f205b8102a9024557b8df83b76f2813776326b585cc0ebb42baa08, 0x1a589fd8194790d8a75484a037b2a46cb57e4b1cf96ef0eb3150c05a8bd1195c, 0x318ae2527d8230f840992733958f3ead69a77c7c22a005dcd609e82868b69a1e)]),
  (20458, [(0x821bdcb8ed54d0e4b5b2d8e0de9ceb5670d36a9e831bc96fceef76df791d47e, 0x25acd692e1cbb598100f05d1bd0e0387e66058685bcd3f7a6d1b9790a6690d2b, 0x135e03446ea6dea8fd8cb9a55450224116c3164a0b3f542203958294b68262d1), (0x99048abeb0f6acce2d2873af9acd23e54cb2996ed35b2103a9d96637bad2bfe, 0x24af313608f9d62f1eda68ee24a97f873f0a1493087810922cae0bf5a24856fd, 0x1f2d5ce0f8711616a0f7e3083b8b27cfcd7e1c778ac1dd839a1b73b0ea5c1ba7), (0x5c1df17ac178fe74204db64939500efb3d2050d190b8960e1639bd30350a840, 0x12d5fc5243836d76339a8220627b4ae8a6dac632326dd3605dc706700c19bbc8, 0x5d81759512913c3ac9d10ffc6cda89d4f810f4bc68a167942828a1a2f1d3124), (0x322ccfc5b50d031ed266e4173f045ae874359bafe172f7f4f970cbaa96695269, 0x9d5c5e294758c863700820103cd56a8e3cfe6180c16c4639bf8c33be23f9ae8, 0x34e45dcb5d9334690dd9b538637b3ded4a6bae6a97b58cb3207d4df008b9f89a), (0xdadb2221a6724f19341b96b7cc7d22804c996d4caf6eb0e3fbe5c6e55a31c6f, 0x26f61390f76a71a5b61df79ac9f215a27ccbcdf0e659e7d94ad5055680ce62be, 0x3f5166171b77cb5604898234825a3a1106189aeb2a2fd014dc16cc00b1fa0a78), (0x1078e1a92dad80213acf774cfae1c4dab093b03a476a52e1e3efda0a74e82ab4, 0x30b5529d8a4e35ab688f61dfccd9c97da72e3fe0438b6c593a1c653193c9b7db, 0x228523a6fe0cab5d200f144a2f0b743bdf30b1b131f971867c1b8f435c2e6ddf), (0x22a88d85739362f0b3fc971a702ade2ac2426a78d825c87e58fa83b1927fe91b, 0x37dde99fedba23e71f1f25750456b295d9e4dc8790450983b914eee41b25d9c0, 0x8d762248a9ee83161108ca80a3833b23ad2aa6b3a6ea21ad04bd8188775e9fb), (0x2773fd4384f119cb609001230b53af6aa617edbf238ac9c9e1e33e2e40bea932, 0xcaebb4807b495fe1431aa990bb13d57c8a0584528d4f38f40c035bbe6ab2c78, 0x2766abd38d71c709855d28955dd9b343c5346385f9786fb43fcc88a6fcf55b20)]),
  (126526, [(0x3555afa8b7528b3bc706b1eb8629ab901d16dea19c4a57f7f9941a1b4c5ae2eb, 0xe0248d38c1d6dd5db12ec146ad7d55191e3183168436dc7d089b3e2f27d8a5b, 0x906d7fdd2fd26a2fccb96c55b9fa4fb087d6fec84cbeb9186edcf705a759962), (0x3c63fbc27adaa43325b93440fe180615dbdf17b067723f774fc5d7f46482f482, 0x26efb6598159ee07917df548b235b8ed735896c36393a3a8f11f04ec3b4f1f5f, 0x369c8b078585ea3ccb5c243ad886edc2371c4759bb402a0be61291a5f712e036), (0x243c20ce205f2afd3406a6c9b883867c8cc65f9e2a307e829827a5089e6589ee, 0x140af2ae80229b1bd101ee9229232bcc17735c44f7cbd7dd2db070dc9530e1b4, 0x2010f1ed9203e0f6ee12dc7c4c24d16cd70b4be5f6c668ca424b6e6b1f2ffed5), (0xfffbc8317d957ddcff888e2bc5313c4ea1a06967f7ee83553af40f5c0dcecce, 0x3de546d35aa9aef74e4f84b1c9e65e6eba370927945b0612d352a20a05b753c, 0x73a3e22a679d038180b682ebf3f001b4d89f9a68472294526f205bcb4f07f0b), (0x2d74f1df137710dc70f14b1d5c576ba6e2b27ec079146aba4f066928eff72783, 0xea8735646c61a78b6b7487d1e2f55b13e9a82a65d8b538cd5bba4797f60ba44, 0x850ab75c2a665a85e69dcf52e1c406f04a741e86ce385f36e779c4b50b45c7e), (0x2906eaabdec479935d5bfdd0837286c402a0cedbcc06a7280fe0c7af810e85f0, 0x37be3bd45848d06240f67a705b66a3022911d102eab703f73b4987e9a188ed8a, 0x1c25aad06b21c88773c826ba1f888186a47ba9810c4ac1d43db30e35bb2d06f3), (0x253659f5bbedc0f418326d46dc00ebf719e501ad9bb4af873e07551c82a7068e, 0x196af971a16aa387957203067ac03687551a3c5622bab5262107427e3b3fb712, 0x19941742db7fd798d4250f9044585401681a301df0f912176080afb20f9da476), (0x3f580479691a92f68c32e47e1882dc5c2d4845ceeafa05327984d6eeffbdc162, 0x1dd1e957341f8a728068c2eb9fed9a32a233a3911beb9669ab2a609021b71b60, 0x2fbd1578678d390d8f2fb1cdd9ccc0a4120b073dad81ca3d3aa100866372a85b)]),
  (472656, [(0x2a30b12fb8b3000a6ca570652af04e6c052215cb9b86a8d33230f3f157054606, 0x3b9a7c4f87e4f613543ee6c94222889cc5cd402659c553ff4ee58e5d9ee8bf54, 0x3fa8704b73aadc510f3868396cf7225dd4f87a95dcebacc3c797646a31d26b8f), (0x27dd6e34f9cd2146b6aef91ce84ce249e226a70ac33e8dd1ba4da9cee8494147, 0x3e296378f35adf8a1b1e53c8b8023efc0d9988b36c587fc73b41c5ab05675259, 0x37daac3d2659125b4a120dc7699adcfcdc4aa71669669be690e112c227ea6b1e), (0x356f7aaacaf048885b9bcfd9b3fedeb80280391bec2d3013e33f7861afb4739e, 0x271ed7f069e9551ba3e45683f6f2bb55bc4cd2e34d653e9ba723b25d5d469f3d, 0x4c18393d61b63214d40178008d8d1824a4ae6b4d9034418bdf0e1c4876bf6cd), (0x81046b60a52a8582066b301c9bd210005f4786fe9e412cc2efd592d67b45562, 0x2b5aa1b020aeaeae3ff1afa0268d4c687ea5bd9387ad6bece5b1d97b28c3f115, 0x29f737a98183f2363fab57bc93e02dd59bf1a954a6140aec38d08436391e6f54), (0x2d7faf3230466910c82844722ba25c3b831de702203e78db43494a95804b8918, 0x208ba0ab97b8cc10b692e46aa72af3fac75a8b98ea455f7f54351c7fe11c6c21, 0x170ed4e6f9f66b83c6a89e193f66c13d3e5da21e013008995d64844243ae823d), (0x2937b35404b4bcddd5b45aa306f4d07fb2f4520d31e5b61f1601b9ed38ec1d2a, 0x20766436d1ef167a28990cf89b70eecf849cf24f5e5b68d2f2e441ff5f72ee07, 0x3dc55b523666f3a9da549934e6eac0ecaa9b18d54ad462588088193f7d8f9a12), (0x32db39aed1ebedafee65729509fee0b8cb679c39800794db2f55d4db8affe870, 0x2d6bcd84910f50976b6e2dbd1ddf4a590d08cdeddda06be93acc473ee68b8883, 0x2e3d87eead97e229c388376cc7907c65a5db608cb22e43970a7d7ee0d8decae7), (0x27a283f22e56ec36392ffac7aa559534db912a5e4a383c6e2f4fc9a20a5d4d7e, 0x350d0cc3d8560c95bd8455a1ecd73ecb060ce6821b6a1994d381d8ace329c3c7, 0x34fb68b1832621c5f4d3faad27a28fcf731a4d611f897ba1a744bf86613aec38)]),
  (207233, [(0x2d92ad4d4ea03f03dbad62b1bc611f7673843718fee728e9869d4be417b7d29f, 0x3ab905d6f42c7ed44f32056c88a2705b3bf36409d26495739d4ceec41cad63f6, 0x28ea6c41d288ad6a302f99ee729e6da380be80fd025320d8869e395f2fef3efd), (0x3ade171d196ea7bb9af1dbc46ad23b43620dc01aa86a2f03e1705e11a4cccab0, 0x35b56cfe4890f930474c3f1fb3252af62ccd7d91e5db3e6de543f3f7ee5f5886, 0x1cf01d29911501e82e427d4de082813f96e2b293350807f80bfe39928aef4fd0), (0x366c5135faefd90f19a8b4d128a7a6861c22f5e9f9dfe6ed039861813756fbee, 0x137c7f14b3cd14b9be97b67cf7cc2e58dc79fb98aefefb1cbb7aa3f3a46cd223, 0xbc84bfc5c1abdaf6656398e3ac5111c639463189bee9efcd34048c7ac0115), (0x1bd861e3e0c8b0f9820e5b1e37f1a01e7f107620de6ffc15c5b62f4ec1aa3144, 0xf72bdc66ea01b4c0082cb50fb0965321bf080d40513d98a84b1b2e2e1c12731, 0x239cbadd7de9f80bd89d697c588558351f94dc13fb05f68b33be6d3cab321a39), (0x1bb1454e04acceb30351f474f87a1d74b321c4443901f3df21b21d29bdec8d07, 0x106d6769222c0645e680bfdec53a5d06e824bc898256d1724431f7cae0e05656, 0x33ec430886d5a12b7d05a0799fa34f152196c3dcd7a4eb9f4f2fbd9ac8561ac), (0x1107fce8f227202d497ceee776509c1b3a25daf64fb648d66af505d97e3c4763, 0x35ce6e300fe699c766075592e6c644bde9a4ab39d6fd43ade9d5f16e7398bfc9, 0x2a697bdca963b30c36e99de947283f05001cba825ab4658acfe59be83e252b0f), (0x3b093fc0d29f3f5ac201521fbf24baf28f17af6fc75f1b37981f797aec06b40a, 0xfda83e968a77d0bf0ed8d8bb6fabd93a21ef0ac05cac8a7f3ed350c88e5e7e1, 0x32086ff49bed7285e966d27cf7ce0426168521499d7a94cc7b64bd152689bc94), (0x20c071fb33aabb3e79fdc59c3cc2f1673e96c75182093dbbbf57462336932b7f, 0x1f3b972d5465fc73ed9e367e45f252aa00413ea068fa5e639f11005f94961f9e, 0x29f787a64c2f927689a29a234a66d8bc236c646c8daf63e23ebadc15de051785)]),
  (182140, [(0x3748d975b118118719925e1df5f85c3cca5e13683e76b98f829d53d564849809, 0x2b0c338bf4fbbddfc36d2a7a12fb62ef599455e002fd1eff5bd6afd569d50300, 0x1a7c03cbb3818eeed1dd14c4f3791b4699f3275f217a7996ea066e5eecbae942), (0x2bc5b7c8b41a7b71507b2c481054ce98090bf5989d65d660622f4e00cc7bc7de, 0x231a116f196de1c42e56122a91a49ba7f40373da142b260471f17d11a44e3b95, 0x358d4fa28c4b9e82590f7c563065c319062709c28223f5d2f2ff20f6819e3e77), (0x108b4084500ff825ea87d2672dab12dc07c999868d13cb0a641aaa7872451e9a, 0x3bbec47ea71b2979c8ff35d47acf13191347012466b237256fb226f209786878, 0x84316716debacf0d2a9aaa255c121f419602c2f419700b18c0ed9c56e577512), (0x569e47e0eff7d01daf0f96bb62cea5b044a3b6fedae35aad130ff48fa201a50, 0x356c74bf4a9448e5be86ea25173d669872b82af391512a5d58c0b839b80e2073, 0x78ca39540ddc200fc3a3a3f5ecca35d0821fcbee61fa3a1166e7231712ec170), (0xcc1c2cf43688391b6ac55e21990a275180c85dd7c73916e27606128d347e48, 0x377e4bd79281ed96cdb24e78e3462165037f8339f5a05e2f676b013215729131, 0x99dec800262ddefae09767d81ff25e31621621ba60d04145753af23cf5bcb6f), (0x2df9427b15dab32438f302cd005d562dc99a7a1ac4a478ae3a3ff55695b7ea33, 0x3a860362178a3dccb3785181d05f292a8ef413169d95eba027cbfb970cfa69eb, 0x17bd83ccf11286a18124bda81079e27944f852416c29489d7a33cb88b06e71ce), (0x31df72965b7db3e31d7c56e229d59df87fd9d422ecd7bfc1582d5a5f7bc2828d, 0x2fa04d945a4f2fb454940fd42704043229685b6e027d02be8de408a5542e9563, 0x1660b52302622d6b3f4db6dc7b5134b57e5a481c65047d6c68f23c3335d615f8), (0x32e17007c7c8ed7a6304f0a2fcca4d1fc77d23fc0b09c5f92db5edc4aee2d0c, 0xa70ecb29935343cceb015d089fdfebaca1ef1106d72c2f4b48aec992880be7b, 0x24c1b9bb6ea10abffa8112adf2dcb2fb765deb0d85d18df55422b59bd2262230)]),
  (28692, [(0x2d4af5ca10eacb9aecb91baafb4d3beb0564613bacc961a8e41f25ec493eec0, 0x1193ef459884aa0c2d3c1ac15db72eeeb809830f66c1e04a9854a41b9b74d772, 0xda4fe3e037aef8732fbf61a778b8e5e13d817b966f397634932650ceedd16a2), (0x2b4246a860740b9ee8a1cfc35dc6f6574cf1b01ce53f9feb0659669bfddf0d94, 0x5cf6f87b3eefd6ade63121c2f75a9dbdd00437adcb4d771b2e8f1f023ee0925, 0x318625b23b38b56678f6658105a18e48793eba1c6c6a2816faf43ecbd01897ea), (0x632dd66e538b135989a3b41a9bbec66811dfc1bd2f159389ac5bed155e07d9e, 0xb8c93306afdbda7d495ab54d3a93782ef514920927e0f963dd4ab4f6fc57f4b, 0x3db9ba897e7329bfb78379081a9eeb6e4829f0d6da7be47d0712790b0a25dcb2), (0x2782e834335306b9b5c269c48a2e63abee4bddc2ef6df8896dd2058c1aaf4de9, 0x3ce4c8f84c829992d36291f37102c955f879f8c8a69e787395906ed3b24c5a2e, 0x3c6cd8c5fc7bda9dc57d8ade8f503532a0967ea695e3f38bd231b6a968c9aa4), (0x36052ed5c8469a15a87d67b237d02aa2e75bda2fa5bc0c39327d57e33d10edf3, 0x241f496fd4c08e8d1af3fd6f2f07f1fd7ba7b213a2a258509f76fea17fe51df1, 0x5c45ec7cea54b7e98f37c1ae77e6c1f955921fceaa3b43a23060363660cc49b), (0x3a0299518ed460dcdb49e953537c470c89c9a52fb5f76a49cc8d64f248944bcb, 0x29ba4840da5cc9f87c374b8a88cd2373d612fcb6781f365ee0197f607f5638d8, 0x1480235bfb9f2b844b256cc4cb27bf21bc5091669cfe4bf15eee778a8458c2ee), (0x7fa10205973a69779d84582c9972dccd9fbc6cae59b5c5f3761254e1c0f1236, 0x3b51a7c652ebc3c47e839a1ff25d78dc2b0a27c79d7438918f5cbb81d382d66e, 0x34f27e5efe4425eebb70b383c5de0d130f8f6813115c0892c53dbf2fb5a54a6e), (0x13cb918cda85ed67f9faf5b95552618257e35efaf7e408b5b5cee6d6666e339b, 0x197029781009d8106e46695790ab1e0793762223038659c7e6edf5042738b6b2, 0x29abcf91835e2cf6682e993c2c63436441f1199292496918d97e06d545052651)]),
  (68225, [(0x3738e55e5cf5815e5fa9006c4c49441cf88d26bd798db2ffddc8c42a5abb460e, 0x2e3a4838f2ae2885143796ef975caf7e928a7df8782e51b5497b5b8b28dee948, 0x321b59087b50f5e92390e3ef8b53dd926c42e38b69e5b5313ca0a8ba1fb8a020), (0x3b83f80f517dd83160148c7984c5d7fd2302dfcdf803bc11ac5a0cebc7e4d053, 0x2730024654f5433fe7a4cfbb070d7d5db6217fc55ffd9ca334a10e39febd34e1, 0x1f8d0daf76631dc3c4318ca98e3f180e2e478be92d087f12b6b7f117a6ad5e90), (0x2118423e75297dd0b389f7c56711d50db725a15f351f5f6f0b43d1199be69050, 0x29c68a9503cc11c43c59f54a7cf24aa0fd0fe017095d6e335dfcc814fd7b0608, 0x2d339379e959c963b50d10a246009b41a9f2423d8025d2c7bd2a60656de47789), (0x359498690743e6788d64bbbc780caa722bdf27632dfcacae7126e2425656aa4, 0x112f64adcc288cb909a902c4387afdab6172f5f3b6043aa0fbe5ae2e261c842, 0xd88d935504213293d218b167d2a72890da10491b92f65c94f0565fe9e02f593), (0x11a31e60656a777e15c4a79c4243bfc6103049738d040f5d5a42aea22f2792e8, 0x2aa8418da352b78f29915509498dcf436e9333a02bd706ab6dd503c33d3bb53f, 0x392bb1bd83ad16ee01cc01699c36d5e96720af535053b184671ebba25c5c77fb), (0x2dddaa0164c8ffaa51b42bc57c95096d5393b02035f53a1021da1da5be506009, 0x23b8e14cbcdb75cb8e9d7b73cd81c890bddf866bdbb3881649b86ad7ee7ae4b4, 0x3afeea60785a5aa6013a970ea193cf3e42de92e5631e09302e5e31588906cb9), (0x2d044dfd926c869be5ea54e6d583fa4b403360cfbcad3a9459f05dc4a466915a, 0x13db4f35a273e5b3213634e0a766be38a2325c31c7bac810fb9b450eae1252d5, 0x23636770764b52d98404381d328a10fac5becacc4da4e72809cf87fdaa73b1c8), (0x24489856151628ea586fe580210064cec773ce1a4d6a0b6f8ae76ad28f25c20e, 0x107c4519ec377538aaeacab95dd30a4813690c3694c061c72103cf1474ea1f1a, 0x668609c7c5d10c211d275356574c73c1573ef7745b766930d55b380ade1e01c)]),
  (53602, [(0x1cc86b88a4cebb11d63268645cf9b784933b878795e09204f53d8ba6b4805cc3, 0xe0ae69acaeba16d7d58ffc57e7696fa22019bd68c875cbab983f9f8d38d0296, 0x1722212dd955da7fdb4b1afdfc2172851c3876555c7362b93f65cf6973ef87ce), (0x166fd8ddf81bc35b12f9444cda77f0541ea813585b2cc950f56d44d9b2078e0c, 0x1fda8e30e838467af10b69daa4fbea342f13e074a6a4f3583c873ad37f63f57e, 0x36d25dae2d4693eb3ec1c48458f3e1cbf30d1b6fe5f57160878411b8e8701632), (0x1b626e20a84f52dcfc0816217505553a101d94b7b502565ea1fa0341d56ca44b, 0x7312d10ebbdc9f461a09ee1d88750af9daff13e6ef9836980e38e7eec430bca, 0x13f91ca548995fcb6f2f81b2f7d52260839fd10e0778f149a6b5a9fbcee2f77f), (0x23a72e9b1f70742eceb1429e01e6d9e5266193c624d32058b9bfa2ca1d10ad8c, 0x39f9fdcaf56cd2726e4d1faa01b870d37711436dfc55bedcf44ac0b32b6c1e09, 0x2c9d5b3456a6d172e4f1a3c5b48ef3a9b254abb143e7618ecf696d14700bd235), (0x33432bb5efa0304083da838d40dd891c2e907b5ca8bb901dc0122f0f3a68105c, 0x2645e65cd42a5bee52b4dafd9a8f3af71c5b1b2ed88091746d14a59f32b9e04d, 0x290107b92fc00bfc7d22fd7d0919a68f24a5e43885503adc8d1c532a48277f02), (0x2110e1b4d8c4b003c250543c33ed436f1c1c973164b65893e5cf8f22f4fbd55f, 0x3db2014d393065289fe08a6743458ac2cfbcc21e5faa1c11b52d0f02d1be3790, 0x1ae8ce1b3f6e12c69c91f54a91e4ad91d5bdd74140b32f1b0d697b25aef75e0b), (0x261008ea1b7e648028dfe3d6ef060dab158593a20830df6741c1e6ae3a4cd761, 0x2d820d55ec9206ce8660af2d6dd147020d7fbcb3e40801d5fcd3306c8680ae44, 0x2c1da43e740abd90f0286fab46665429644516b18f039175907e9ac62c96def0), (0x3b50666e41c38c72f16a5318de0e0bbe97ccbec0344873f5976a7a695172f9b8, 0x30e5c85518782fa19bb24064bb9db7026c9a2ff63c1b3272aec17458d16e42f9, 0xb18ebd82c94094a95a224bd3e7b3ce840a15b822ba443e5a83cd4742ff5c7cc)]),
  (159006, [(0x154866f4b2ab973a5ba4c35d72a79cb7efb0f82be73f4e0229806881cfc2a739, 0x228184889518c8e1bad1629f6009e3edec9f714b42de74de59143c7ceeb4126, 0x29208e18a401c06950e247c6fdd0c0fdd4faff32f27dc3b639173d613c2d57b0), (0x380b0cb1b64c86c8a7b4daf7cb93361b3df06c4cff079746d585cb980203e4a9, 0xd5fbfe0d1cc1fbc941b4fa59dc21920ed2ae7a8f9eb9142e23c594eeedb7a0d, 0x3d073d93d44dc9415d54046006ec0f462a660af26f1c2557567fc26fb6d9e79d), (0x3d62d5bfbf9eaddc15ebe47dfb83269ba1a369161a6a8cf89d94f84b754a50d2, 0xf471a22a9163e5aa438fe8b13a631830beda037e86afca4419e09f0c6fbe52c, 0x1c8a92837babf6d28a5d8d0c68e67a1f40416f4379499cca7d18543652ab7b74), (0x32500f9affa28bfa0f622882ac9880477f93702e0f429b3816ef4d18c533719f, 0x31657aef4aa35e9b8e753a9d636710bc989bde098642d33cd3cd511d1ce966de, 0x12b328ad26c9014a66daad6a91116877a5563334b516971d456982bf2280733b), (0xb80640b6796881cbf6b279ee889964b072d0a99a40630e128c0e876897eec82, 0x1358d8ef4663a99a958e1d5d7c6ae90ee4314d5f45f919076c9a4cc2dc7634f, 0x3bbaf58dee3ca4aca74154891b3bf4a22b17640d5895cbffc151e8fdc5003318), (0x29ad26efd1913bddc4c1b741e817f3aaefb868fb4b8703ff22382661b9d4825, 0x243bfa835a351f3e18bc948c6f680ef82481719707a56175bb4ceda8391b5bc2, 0xf16f4f61586a4bd27bec7390eb5d9ec3c8e735a54e66df18307724e569ed08), (0x3c2319bd2b1dec88633b7d68bc5185744377ca3309460833f8242b76594e8e0b, 0x32d95e7bc225da0babc5159f61d618ee72f1c052dcfcbc9382efd27421129556, 0x1213a56a713b03bdadd55a3fe0cf9120962c2ea15d5b2bc0e3f0c4e7a3bd379b), (0x7c06a10dd0034aac532da78cd19fbf6371f9d70e9dc3409e1b5b75ccd2a9d51, 0x1c9d6dcc16bbbcede80e2ce4dd91ef9a38d5a2bb758740552fd46fc08c578477, 0x3986f82437b92e5509aba590e36f45952ce83471614b973244828804eee32e34)]),
  (140116, [(0x3576c6a0cf3f6e4ddab7159d58ad2501c38b45909ab5a0906e7ef1d04f0f90, 0xb23a5b8acd27c6e17a5e5740b483a7633c107e561111d12b07866024e8c43a6, 0xdce14f7a54b667f3ecda7d37796b3d3725052ee9279dac286103d70a55d82a0), (0x21b3f04a9a90a4933c8c96c9eb0855126a818e798771de69ac179d3184f04fd, 0x3a4e132544dc6ec651c93050c518377314db735f5e4b0372e055669bf0063f5a, 0x119b2d88bc12364752e965b8866b43ce890e92594f417fd5d579a43fa832283f), (0x2ace31761abbc9ca40e17667681416b5ed25ff296cc5ac4b6f05019cc45554d8, 0x10eb332b3c08f3eb994f9d8f07c527a42d18939625393b20045fc100ede53664, 0x30f6bbf0e536adcddee017335487f78353b5750565b9053412a92532c95cabbe), (0x1917abc011d6248a8bcdf0fdec9efe209da75a5c361daf90cf53af18eba1c093, 0xedd0dcc84112aab3ab6778ec6c570c3ba1d2ab6ff778c28f84134ef3c6bb157, 0x22e1dc9ec14982687335cbbcea33d186b88d27e687f8952b823dc481228e7f09), (0x1eaf82da221e1ef6859613fbc772fe27d9b7c7587b678f35b9b40b2a8e2cb9bc, 0x2322c9884b7fe79d960633b0e3c4cb5aef1d1ce35d0d823eb6fb86cc94df7f08, 0xb355f1e22a9bf4628245eff9bcf6b0f3b520404c80806640abbef94507adc0d), (0xbabde1a265e59041030cdef482fb77476474a96e54956e16f14d2e4373b1dd3, 0x2769ad70bb8ebbe3947d978f1edb39ff298c7635430773f9c86b83979600d17b, 0x342cfa4f735597d0bfd45b1c4c02a95e0d5e26dcf28f45fa69040a5aa0f4938), (0xf152cd6a31461abdc054ace726629298ef25e916d49a18fe3d9c196696c0328, 0xd61bd287a2ba881aeedd323a74c40ab98c8c3f7d23358b21ef5b6ebf80ee80, 0xe4f01e51ded44388d7ccf5e0173c85215c561b7f4b5751c0dc1edf21834d58c), (0x2af2692d3e57a77e2197adbbcf19b50d2e528b65bd7da9580dd8b631e51b4e6a, 0x21c378b6af6d5386d62a26b3943aacca2de0c771a89df0bd4193760d21b9b023, 0x1006e212c00cf10f20164e71261e93dfef05e701a59e63d093eea39779fd7827)])]

def windowRows7 : List WindowRow := [
  (88050, [(0x77d33c0091c0c049feaaca1dc39ec70f6fa4acfd0af8293cb4120192507b168, 0x2a658e4cca35ecc6cbd407d4ad004f8f201fc709ca8a2d6de65cf3c03254d586, 0x1e9b9a9166b872b2fbd66a8f98257005e7078eaafdd60a1201924816604a41f), (0xbef9a8292aee97cbad8c42784db1403571d81880145a69fa299c14ceb76e10f, 0x184ad7f4d8d78b50d28f893f2a063aa782107b5ef6e870ecaa4860beeb2a3a2b, 0xfe60c464b14d5dfb3df836fcef6170b1992791b4eb254b238e4d569ae17bddd), (0x3e9319cc41ef177f5b3ff66cd7dca4b928649303b27c5ab6222c385eee5f8796, 0x3e5b7b15b6f4f6921b65ccf3bb362001aade925afd0c39e2411e61120d773068, 0x1db1d07b988e2bfad5d23d8dd068a5a836927426401371cac0e951137d57ca2c), (0x98a66e400d598e2e12213a8878b6731d17c5b20f8316b47398c4c54dfa76824, 0x3bbd93b321f01d7d82342588e73a25cb443aea79f8dbf77571fd6c66384b83df, 0xb967490df0470edb41d9c826203ee38b3e42886680a406e896d3b281d3b7b49), (0x21840014b1361dc90c342718f258a7f836b7c8cfa6d14c61548f867988765ebc, 0x282d6a874761449632eca950ccc42483d00108454a517b098bc12302f971f5fa, 0x27b76d074ed4d798d79bebb3069cffd18493650c614aa122cb38f9e5808e76aa), (0x25a501e4b926105eca618bb37433ce2d76a81d06f7a3d18851cd902b1c0910fe, 0x282eb58bb62da882f8908ea3e37c2d2c6df4c432bb223cb9011f20d887d4b35f, 0x1ab06fe040af8bca45918988cbd3b6fb4d413aa07895f42729706ce078962a4a), (0x14b0412adbee5e38cd4c2456f6e97127c76fa6156287cf44811393f18cf52e44, 0x127532b3ec4b9b901f76fca7328ba1917a8d8e58631162f613ad859d27a53df4, 0x1503ba446cfb4cd2be9e49d4f94c947d3838dfb164493fc8c624f92dda1f229a), (0x823fe82c5c76298b17a0f46dbd3eaa80eef78b01e39dea4bdbaca7477ca918, 0x32fe0f87f46bbb2a600f0c2f5383fe246d11451c667c4f13cb6f7a0035292e23, 0x2f96d5ddfcd09e128742a24fbf55241f99a8251829237f360a1754c4c6f9d8a7)]),
  (45619, [(0x2e3f313a90eb5d334bbf6f75cbf060887372ee3cd3949394f817dbc50ad3c87, 0xc7cbd7df8033cc16a43a4a7bb15958fe68330c1e8465da836fc23ec10aa3ba6, 0x15931dbf42c92a7a7077939851375892ab596d8bfcc7d943b5244dbdfb522192), (0x3fadc9b4f77c45d53223bf806e90ca9d18bb0ec60ea7a474f7119d324b52e213, 0xf1da0304348893fd1f9e51504633fb96492810c452b0e55cf3b19d3c9091e39, 0xad6b816b1458a073c9dcb746dc70cf0c97c7eb75583a24359a1c403a7bdd7d8), (0x34f3c513e5eb640b7244df9cdd114b30e2e93beb0542a41ea7162547249bebe0, 0x704e23cda5bb7216609c699253ee120e0c88deaa382af8c9722dd188e80eff1, 0x20d2a24c08402e5e295517ef5e6cf4cbe195c27dbe271afe68f83f3f18396f73), (0x445e519d02acac89167b016ad10b72fd82fdbcb720029e2e526336d9e14dc55, 0x17128e80d7741e58b68357a0f07aadb4c135560370f4e9c396c33dddcf7a2cd, 0x2c6c1216fcc14b6056ad17c6c04147ad9d7ad1a947a7dcafdcb8ffd485009915), (0x161f6254b7c8d0ffc14ce1de9e7b376768a3a61dab38b3511d50a9dd96b3eddc, 0x10e3da9ba0d61e493f30daedafa76e717a785f6122727bb38b02f8c851bd8257, 0x4f75c17304f30928b54559b56ffafc081f65f45538c39a6772dcf57b86cd803), (0x2458286c9b512cc57307fc62c69c7aede9378f82d9c435f98116a9562a97f0a1, 0x3669bfc5cd773b5f66565a75d28bc97794ed05bb7b60132eea629f1c44e00a31, 0x16711e3e32c351f34363d260120a5245e33aa126cdb6fa956ce06cdd63cdd3e7), (0x26a02408a6af1050c1acfae311e79473677c68d06f853fd48c4c8d716332b5aa, 0x2e3625ae44873f571fe0db980e1189e7d8217929da753f9a3558e85bed3cc584, 0x179e4923b1dfde2c88bd53d9e8ad2cc8521e3ce47d5231e3ba5559c9b29ea8c), (0x2c666fa2dd86076932bf474e407aec0878eadb8680482eb2b16affa5ae2d4f0a, 0xb2cefa58bb9508aedeba2669f7164800fb340d7f4955f4a54dfa7ca4407a422, 0x23d5cab09c5f31f47be3c6073f699f1e3f0c58635d84f30d7af1588c6ffde96)]),
  (58608, [(0x173dc84672fa04bab8d625c038d739b4cc68c0e932ca7f03a44fae2b1b8a0201, 0x1a0d5fca1f3877db4fc2371130ec74c48d420db7b1f7a5e081c67febc5e9f68f, 0x16acec94afed745701fc17d704ddc42c10219ddfe8e5f300d485f4baf76f5125), (0x2a7e89bc800db8397b6616bc81a6bdc94443a5725b259c72802827ee211c0d35, 0xb0ad523cae9d29ea7a43b740068a67c695bfcd5df79f4e8f4d6fa7c950e8371, 0x1d5b0581e9676a38cf12294e1d4659c7f613201f9324cae35f9fd3e2d20dde5a), (0x3caacf9f82a8962e0ddb3cef79cf75554c9835ba80ecc94e6e2945c79691e5ef, 0x2107d7082175508693485654016b8b244fcb3b43288d139c7aac4bcd6a7841da, 0x397211e8ead748b9b214c75b4e53fb07d1dbc033657be236b2326703ab7b9d0), (0x1d67e7557aa418ef8ef373dd112ac041ecd3d8aa5643c4443f1bb55d9540c247, 0x36c205defcb78b49202754720f1d0bef337f13f74a6f4b157a54c1f2544f579e, 0x2a956e424977a14046e01141c1235034da7d9ca6e9e54dcbcd22343e8d0aed54), (0x1a6187e7fbae321c2050f21a980af8761bc8039a3d7418598caa0e5bdd6c43c4, 0x2ec03b08548a779e317e9d19cc2e65165a254afc0190463220b61ed5151d182, 0x2073a128a8a36da0338ace4bff6babdd3be11ca7366f168641f6a2cef3f282b4), (0x387c6af45950aa9cd084947ea9bf39fe7dab4099d9079968769959039660a0c1, 0x2ec8fb75c6d80e664175c942d2c1851c28f671fdff9b1818b52444d4d9f95b5c, 0x1c9b641e181411e38e8ac168abfd5d29c1dfda8c9d029033278056828dc7e1f8), (0x2d7d731985bf5b9c7300f19ebce8ff8bf8447532e247901d46062fe67d2e9a7e, 0xce6c6bb952b63c4aef83f43ddef08f1abda265e222ca71bd01b26df21d8424e, 0xc3068191bf5ee643b1da16482329a1003e3301a927202108ee10855f4cc09b0), (0x2d0dfe6d69f86a4089e9178a75678586d6d19dca546386a3a986db3de3742934, 0x2d05946a5982d19f45ff25bc8affb81379fe3dc64201a91913766b42b8dac2eb, 0x3c5ed318590a3879de233aa802c7ddb3c2ab851ffc4ecec2da11e2c447c43655)]),
  (177089, [(0xb6d0e7d8e91f7b3710ee9fd9f85dc43073fad8bec301b60abcc77ccd8a2bf1a, 0xbdad9c136a4b0ead58bb11f4f31e1528622f25e1ef3c640921682cd65efee17, 0x2e595157b87fedc8f7cad2bda4a192d56c8ec74182d3983cd317420cd3eca2ae), (0x596ef085884f58951512a27f742269657ea7ee1d1b57065f34f988c4319e59a, 0x16e4fc70a9a1826a944a109b02e1d70b3fd2333008f716aeb4f64ff60b0c7cb3, 0x27db4d2e7567de38ca80ee640c64ef3335c62048c6b692d084d266c9bbf9bdbb), (0x128ac25b4f6e950bacb87bf33f51f9f22d395463be9d1db2a8d7623bb7b27e44, 0x3d51288663aa53cf8390406ef4ef6be7607f4f50c637a8b36e2a1116dd5a212c, 0x2bc8e7c67eae90c3f6f2de7a00778b69996aad176c67b70900e4ffdd99748550), (0x2f2f24b5a78b7b547e96b6f2ac409ca8a3d147883d4d2af36354251f81a72474, 0x28d046915712b10da5eabf503626c2a8ba318cb9425443b5324655665536c5fd, 0x7f523c9ec3907efe6509a0594709ff8e89be92252e7ce9554a6bcf4ca76c03d), (0x23c5052d1d190bc76e234ece9086811ef11b91b862d05153fae190a5824b1436, 0x11671491ffaf7439e09383d1eb99aee9c9eebe0a15aa8eff8ffe85b45510ed62, 0x3bf02f489b9e08249c5c5ed33d6a72e4e7ee308a9607cba3a70393d9b6582e8f), (0x2a17bb1078909fe040c07169fd9e6593441e4981328df7999705c93282924c0c, 0x3c7c35d06d5fa471b23fc491d78d068a0c70c376c7737ff3e767624102d6a83d, 0x29453723d7be596817e562ad9c0a51dbbf536da1eab6ff20bdfbd2b10594dbe3), (0x16ef7cf7da5d58cbab701f6a6f862ba2c754dc81ab7858459f7cc8635306c0da, 0x263712dc765a6726372d3e76e260f55e461bb2ed17b986da500fba9ba83bfd6c, 0x7a00942fc6570e2fb962f9cdf0bfd9194a2adf810355ada5fc1eaab633c92cb), (0x282dca863f8e74ac7896b6e72fc8fe71373f4b86d831dff7f4e3383433e20349, 0x27a816b6d9b3e1845349c72363288976ecfccfc0e27bd0420d4c8d889a91ef95, 0x7085a901451303a2bb241a6b77776a4525055dd3e6df9820e0b511bf0445a23)]),
  (113359, [(0x1e1dbdc6afa96e8ab5e705b85de078d11a3fe4e7462d7547068adafcc35f6ab4, 0xf4b47df7adc13340462db596e269ae4c9a1261320f694b696901f81d55f4778, 0x10ff6397a9929c7bc612ef93b258045ea19e96abebe5380d41368a19d7b23d1f), (0x3878100c920123d0cd14e0d719132bedd06d4c89668ca3e3bc9b9a0a79787847, 0x21b0b2b4b8609c7a1f2b902e3720f9ecb0e4c756eba9b2fc45486068491196ab, 0x3573ff05eaebfdb17d22f3b5ad37266745eafb0c83a065eb922eb5a01a3cd0a9), (0x1edb152a90f2663244dd7ca59225f59ddacfde232a58e1cd3a632637f34b77f9, 0x26bf006f087ec58318f77061748763735a9afba5fb15d215e6cebfac4d6c5e2b, 0x3122f8259c4fb74b789a60fe3b27bc19f031d390903e69f5855fdc1a7a84a946), (0x3723e3fa38d73d9878f9cae256dacb5c9877cae5f5faf997371d4c6d2231d2ab, 0x318725ec4241bfc20392adb98b6adc2cb555f89ce58ab682b7494327ce248014, 0x1c9a5712b9422ca195bdce40030455c94ce9ab413ea8d605ede5748577e15d42), (0x3a661cc106aa50cd51c21d1c51588c2fb71d69bca977a21eef936c2ad14d6130, 0x3c0235f5fd74398a705c83714e3e99d4db83755f5e1397cd32805a790154f78a, 0xa3852fcbcc661544ee748ba2ae900ef3156696637c7064e1565da4772409373), (0x26a8a60a004060da84349481ece90869ea759852f58518b781162e19c2d789ed, 0x1db8db0d83ff4a1c2eec0beb6f4e506d9dfd0ad8db35e9c5c94d3a33150a3626, 0xbf0b7ca9e667e7345276463a82c05b4e06b6a5bec8a0a34363a6c9b3d8199b9), (0x213ff64a3b04f001cfa435110f7534d2ed9394241a847acc1b9b5fe7f1bf8a80, 0x2dd4de98367f0a77154ae37b33322e19fc55edef75642bde6dacb089542e5854, 0x3e20a61563c56e6b094ecd2e0968528c418b3540216ba758674187142f71af39), (0xbb80be8ed9753baca0a9c4b34fb5247e985d164b9363d3d8c39681efdcb8f05, 0x3b65edab0f1319489bc88d9257b5cd36f7352c8c346619f3eecc4400884909f7, 0x32fdb78e075d30b5e9d10da80b22af542c1bb0de412e65563f19e42871919297)]),
  (36185, [(0x2716c73ea5a5d2aa12b4414434ca088856b7da1976e711e949b12dfd6712f2a2, 0x27bf28ab8799adf481b92a6270118020b1dfbe278478bdfa945885541c2d7511, 0x2ac6bcedd2dbceabe4cc51ca765b44be33f1d0279c640ae94cf90c50f36dacea), (0x36695e6e67a74d4cd39a2ea240186e997a14fa3554a268b6d8dadf125899c45d, 0x2738c25fc1e1944d82e8e83c81c136d01cd941db84a101e42fc5a484c84a049e, 0x37907d265c21505804fb26df4906e5608f98ae385352e33b5fc28da5204884c7), (0x1c59f04ab4592ddb7a5243a6d26c36a9fe0314c583fe570199a86641f44103d9, 0x38850c96499f80ae02a2dd7eea9de01938a06069751c049924afac9368df4fe0, 0x2666f1cdd869622dd851ec2443bf1c0ec8cc4e110b4a12ea3aea9e0e796c84c5), (0x2e7db26ffc22d812ad3661e6c33637cc2be53698907c9c77159afb2528a62e66, 0xaf192c2b183b1bb92d8226d29b5b47676ba90568d81b0095e06456ad21930a, 0xd014a717a4a6dd4073e39b9fa790897d1d1061893fccd2556a18253e5aad47e), (0x31ff0d8e7eef58ed0bf3694d2ffd472d01f2cd37d1e37861367f20da93462d06, 0x8772d32a4890b0dc77bf0a4f8f03f941198e1b76b9fdeea1a9af033f4df18af, 0x2bdff60b49c93155653fc69595dec63ba0c8459e60b2f3ecc5709d3489eb3900), (0x13a1b0bc2eb809af7e136c6b19e4d564f657d68959e9767328734c404a53eeef, 0x6a99fe42fffa28cdcda545c4e1218e044cfa231c237c6ec7764c25bec5f13fd, 0x39bf6b884af145b08327e0a8500906236a3d626779f0faf57e3c064300ac75c1), (0x2fdd839dec65bdfa3ad2bc0bd730e4401190a84e49b97a739a385bfda1ce708d, 0x3d405675812a1de864a4b40357aae904f031bb024accb20a8d78bce01c3ae20c, 0x25e187a7724bde47279d5d93638467d0f388ff1c6f76611f3e9e0d25fc081d7c), (0x3e94d73c8cc3461c2fa4bd85c44cb200db8cdfb23bdf77073814dc9287b90fa2, 0xb7477cd8f66b8f02d2ffcb376bfb2a7886bf8fbe5dafa084641d5d87417ea22, 0x18087b4f913ed078d9a74f927235c6a6304df02a24a3ef4f5d81c210ce062728)]),
  (195431, [(0x99de2bc8eb9c34365cbf02da5dab12fb19be97b5e433939bcfc6e43f31e64ad, 0x1fb8ea52e410fe36527ac93f5b0c8c03350f73979906e804bf74e7512fac0a68, 0x3a53ed2e316a06b44f71092586625b90cd70a94665bb0a7bf3a911678a4ca31), (0x6cb5b8596f51d9bdc39dcd4249b8b0290e6b2cf29cce6a7f4fe780ef8db498d, 0x1f06fb7c73342b309440caac2e10655e049411a4855fb29ce65741bb951dea3a, 0x22a1c46c13c7858a49e8e18f3b3a9c14dc146b4bae78242f763567ad24da05f1), (0x2040049673b84977af08d4e325d7f99b4b2c970ea65082e870bddb60fff81561, 0x2dbe31f7fd79c922609e5acec621d73fe6c61348b86c3eb88e93af56aef44309, 0x3dc6ea43587ee734f4d0c0188602d022313d83548238319a6c7a269a81cde2f), (0x367f1eea7aa04af9929b6aeb3fa7e8135c4b9a11697dad699c5987860efb2fde, 0x2a5cbf4576952e4824c55ac70c37e184ccc125bde5aac16aa63e54882cdb7053, 0x25b871ea0114b583af71d6b8f2c52e8ef8d97eaa168cec30895a8674c0caa920), (0x3d4e3d189f1321083f3721ebb6375250cf0c277e1ee2494d0ccd7d50427214c1, 0x110e1896d17f4d85097b06b5ebd17100ace92b8ada2800ef89fa374d51b07611, 0x2bdfd29facffb1b9ca47192287374a8863a99cd82e9ad90bc29454dce9d0f9df), (0x1c386ad07393e3ae5816f7e16c4884274d3cb83531a56e7a73a5524dc8c47b, 0x627cd0b6873beada27025a358ede51220fa8589faab61cd7076736e84e744b2, 0x1780ce4f36b55bcb47fe50b637839c4a4b61e1795b72f77fe4b8e99267792b4a), (0x14f83e9be2fa5a5984f8381713c1da3626beab242e61cfe532040dbb216f66e4, 0x292a88143549bec3ce424191c5b711fb489d23b091f405fb388667fc77fbef53, 0x14114637225b0b1f4cc13609a5ea711f8986859a722f79917a32a0decc1c52eb), (0x589215f6d63b54633da17c127dbb7ee2ea65639d4241e77104c7b4a6c043630, 0x3b9eeff4b64de5070c6d04bfa6ef6a7548184782837d4c8980ebbe5728f70ee8, 0x2c120981721360979d76af5d6f50af7fe6545a89d6c6afeee63df95a0bcaa695)]),
  (2923, [(0x102d0147256181588302a97950929907531d17dc86947abaff5c97ec06bd41fa, 0x2f7660654bf8d340f136fd0978b1636d5ad81a2677299c1f7d1c97c086ac0c8a, 0x189ba359552a766d98ffa0e0ae84b074877ededbcea194212c997c6eef5d2459), (0x3b74cfcd70c5be00a7d6e14010402159052a649cae4be298371da1c070fc7911, 0x1f13ca06d4dfe7bd3641a3b445a807b1e668084f685c6aed24105fd0dfecd163, 0x3528e2a9bb6f34552ee8d10389718c4a3e40ec6b26d95a7c603b3ae844635a5c), (0x3ac15bac6437270de6987261609f96172e3f32473e7a46bb0f5a658b6b61cef3, 0x12b3a8db97fc9e87747506c715df15bf23bf84fc987af3a9dba5cd4fea27fd99, 0x1a348cd32e1602cfd642e9fd092e1ebd074d4fe927b586e7385a27e72eed46), (0xb92691fae56e6085c2aa2cb2664d27c440a23a4a2a3b5c426ef2bd4cfa5109d, 0x37d92bd76e1537fec4c5d3004109ae5539e94bdc175970072f47fe8cc0cea008, 0x10f4be6c9bb07537e08d61b14c34355bfd23ed4d3f8a3ad2a856384db4433a1c), (0x1a9a6e94d84a20068cf2d65f08bfbc2ed9b3f35e76555eeb33f052dcd901c356, 0x29f3c1416f2f0d8e053f004d740419eb917032db25f57caf4d0c51fad3689191, 0xff74ada8bc375d1b8fe769fad04a55d7f914ec8cc14e7d13cfb5b66739d0886), (0xb8fd3fb650477c60b93f33c58abba7ae7c16a4c88aae4266654d8c76d708f75, 0x30df391dd8ba71ea9164d44a77bc32b65c166e6422e1c3b76822723c98efe367, 0x22189df423efeb26a1a96191c0a64f5302ec313e8d3691f3854cf17f94db0118), (0x3ed1b5a3cb42e7bb2ba6ffc8db1662e456806ee17ea93b19ad04861a9a452005, 0x3eabbdc9d8ac4ad6adcd8981b0c1604315727e77cf31eca1b41084ba501146be, 0x5f20dbdc7b5b3400650c277116ba4711fbf9cc4aac3237b21ba6d64e2af0460), (0x310c178855fddec713b7a2716e9978313c34c01f6956427a1bf1a9d51909d955, 0x946ba6e61ec3826c3bc2ff2e4d4aa8d40bd047dcfbd275128d593cde009caa2, 0x344bec7fa4c7e85397b78c0b9e30ae6abc0948e11aba374de1e90d88f5e7c713)]),
  (74622, [(0x37695ab1e75982415ef305fadbf4bf40730ace246132858637877427980f3602, 0xcaf0107b03889c807dabb9b2922a1eb531d875ed485ee60b26c88cc082f827d, 0x39ba3c15fbd96775bba1080a1490f85fad641be587893ed9d91e6c56e27991e5), (0x11246228515a10357ba4160bdedafd564150d536e17692e10c65dd4adf9da9dc, 0x3dd2642b604c2651f620c4fb517aef7d7c4b65df90564a7f7e2aa8124172b3be, 0x1b1a87b5ccb99dbb7892df0b6add4edb6839300ff3b054680dbb0e256bdb1b8b), (0x20a4d6c77e89c70f74322d82b8ed90b66e41b5512e20a8325628883cb3c5de72, 0x3cc0ef78588f9b0c4bd69f7999536cd02a0475b60676a2ec16de9eb108aaf92b, 0x8218947333e227acf546d459f85d688275894ba228ab9faf9e0300bc5661a6c), (0x2bddad192f2e2319e58728b75fb9af3109b74b80272869187c6ae5b1085f0245, 0x1d35746f61f48213f449f484446b8a0d31cb12fa8a4b6e85eeb4a122baf1743d, 0xc13335dc2358e9d9071c3aa4a54fb3e7c4e62707439527930f8213049bde6d7), (0xed9ee98b83f363e168173eb69aac0755a799d2067340563f47fd39842797d2c, 0x244ae851016e1738d47532230eb976eb2875afb2fc08fc4534297bea964b51d6, 0x33e6387e8adabaa29ce65ce0fe98e7b6fa70b32c45239f6b81ce711ae234d7db), (0x15de1d4f7eac77b29c5c2fd5bd5392a30f3b57dd3c631b9eec6bcece98ddb710, 0x137ef3d8f7227414d6c976651c4a3f51bdf68a03642cf1631eda37236eeaf756, 0x401f9c87fbaff9775ac661c4c5f0a1f242663812841f45e05573f87dc93b1c9), (0x9d4188af37de4ceeb4ab5b1779bb88783e148beab27b9348668a43d9ec56a93, 0x3976b35163e6b219a8923b964122a14c924f054bddd40bb82ac5af8aa751f678, 0x320cd6da61b7f1a62805a73b9592951938673f376e40e27ef886ff8092322dea), (0x3275a284476e6088234e615c4439c19eb3bf1dbf18482d4f7d3affdf22ad1072, 0x23fd46fe12c84a7dd395b9a96bb0fd51aeefa064f16ddd64a58b65484363c1e2, 0x169dfb1c2b611f25aed832aa0cb3c9636aecfad4d77bcee360ec7f9ef8a80a38)]),
  (20536, [(0x45587513fd1ec55b25119391a022fda6d9b9de007ef66e3251a309ca6c67813, 0x2782789b0b03d0ce8925e0f4fb3f6038863fb266efbfa2d1c4a403b8dc7a9c01, 0x178ea0e229d8d48eb9ebc589e86ea00ea1750e93f540e6982e8f4f728e60895c), (0x1513b18779774ebc52ae616142765d059e3cae111dce310b07c613924e652941, 0x59583ddf501ed1fbbcc567d1419159f8c9b529f871385e3dcc6047ee601bad7, 0x351f8929975b6a6d9e6401eccef0433dcad4beaf915cc6230cfec1d20cf64b63), (0x164b6637d5c1380f8764bc4df71b8921f8246558225b5a9a67b5bf65cb88e553, 0xa72cf385b9e13320fd9712add904ebdc116ef6b9a48861125960b0e952e0289, 0x1dc459f6a25ec6b12dfb9a4637a781014be1b7d8ea28c6dc8c2f83a1aec2e1d1), (0x79d62f5bf9cabf8e5d554ed3787a834ef5ac9f00aefd3afdc3ad4400dc979c6, 0x20f567dcabd73a2105fffb2f95ea9a8a172ef2c243b001d1a0b72f64bc447275, 0x13677a4c10b67f71897f263944b17623163a2b29a83f0f6c928fdbadbdb2fbbd), (0x1ede6e8b163b1148cfa37ee972284acf983cdf4c96cb519a63acd619d2d349d2, 0x3fe3ab040efeda9a7c24878cff1759346a8ab7e66dd10e2aff618721d04f804e, 0x173d31cd694aefcfff4ff281a57b12007254fa683cba8ffe403491f0270e6337), (0x2c9f1a3d963d64fad1c123bc77a42b923b09b1ce907a367f3003f869144d556b, 0x216b1ba99e6fb4a3f20f085d21a79a5e8cd6d9514a300c5e8328e9edafded999, 0x2de2050669e5daa10f40c3f486b97a326be43758a27f2f450197e609623fc04a), (0x2774fe6c2745af67d9e32585fcfe28fa48b8294aa96b2d66ab77d0d88de5ef0b, 0x2857014b94615758ef97dcb3457288a5c7cb7ac22acf5dbc3399f7a31bfc7c67, 0x1c82a60e4a9ca715aedcdffc9f0b712196296cf5e1d74f6ddcedef910a6da8ac), (0x36e9c83f898a6ddc3e1daa9c523895e9093d250bc54e897ad61b4ae6418cbce7, 0x3c6941c6d7efe8fd656ce1848188ce817005cb35e50a96baf9e547aac5301a1, 0x40372bb0cc6f99c005a176df8ddf451027c375ae40dd7271e72562115042790)])]

def fullLast : WindowRow :=
  (4210, [(0x2f79fa7be155f3c9fc1c52c142ad6acfba135e60a9eed3b75b18a9b390e2142, 0x27748e1b1ca12c1e61d1bca06d4e9bab2c520bccf6ea73ef4f243d72c17e1078, 0x52d9376ab19a096792966da2b156319e72223a8ebd45668fcc0d98c03ff37d8), (0x2e88939c9a10bca7ca247a6e47429069ff7ea015e7b70c0c0683ee95ad5195c1, 0x1bee7b0394832a762d9c2822bb557036e184be80fe5928cd0e32db952a1ca698, 0x13e6b5fa0d41a4d0281a5da6c5bafa32db5556dc289f411540989d9b13a2a7c4), (0x60316b74018e5f8da251e72edf22ff04a34688bb2b949b05a1b3f14eb3af047, 0x3e20fd305fb446c605dff2740d2b72293ed928d9179ead445984b8ba489e7ad8, 0x349bf6adfd73781a015cca92b02606b2f4fed3600622368aee650e220862979b), (0x3c3af54c023fa0d50ee6aea2d27489f3e528029eef67da1cdc8fa92637a60f30, 0xfc2e38ed12e1f45aa7f9c9ff80c89e4f450576700486696412d4c76fd12c1f, 0x313cbb5efdcdbab33ed9eb5117123566038422a420e1670059cd90f696f05610), (0x9d1acc7007c754accc126a589b305219b8775817f9ea4fde151ccd4f0de8c9, 0x311f9631be8ee4fe4497dce38a4a6af13f1a4149397d9d26a12d9ceb114dd52b, 0x3dfda0c1d510680026ee406071885416cae13fe2f877f26527f64ba9d33ecf01), (0x5f04fea5efc38d8ef0105b6161fc9a72be4f75199ffcced6dd1eafdaf6958a2, 0x1dd4d1168a07eb457ba7e52dc1889fa2da7f1132874412df51153557bb4928e9, 0x2ef155903c7e9363cce9274d398d378d16c77cb96f92aee9a075473fd2bce25b), (0x2db512741436e283cf9596f683d50bcb951136314c94d5229d57b97591e549fc, 0x127a8a07dbd4a5db3089c9298e38a38edb5da4cc7af132df05db5b8ac9326000, 0x216a796724fe30ed49c4e0e3dcd5bfa1031478092e445e158bd16c6194faba02), (0x2540f369e37ad8e116e8191d8c87b78bc29241afc2c94ae5706de8c057784521, 0xe969c9d4d4df8b726d6df4377bef43c4743189c6e66c7be84f3e687772bf1a, 0xdd3126e5d5864e98f1616b34bf09f15492bb0dee35c98395b140b3401d734d6)])

def fullMore : List Pair := [
  (0x3168e35c1e01dded785e756436cad6bd34ae46bdb4198bb0b7c72237cd97b271, 0x29ef7d40482e40b08d913e971355803d396f3071cde2b673398221d0524d7033),
  (0xee1796ac6db5d2219df7e4595bf7dc0610709741cd19e55e84fbc5312da6e68, 0x338c1a52086f1da1d6cf48c1fbefcb603777340bc5c37017c189d6f0a8a6a02c),
  (0x29ef42db66f037b3f656a5715e8754ed058e74931b3a67565da14ae2741d0ccf, 0x310fe078034c8dd64a8b46d7edf519335e05d1a717f13cacb50b0c92e90b1958),
  (0x46572b4a2ad56a483dd8085dee5ff5d1558ae2225a2d036268bb17ec6bb270b, 0x37c7d0c333e2642aea39c5fdabc69343c52bad65bdce45522b3a95caa492b24a),
  (0x1f534c103e50cd85224f5240850b628aece47693c058102e97c55c8f7f3569d5, 0x20b915fb69d382e0734a65aef55c4ceac22a4c15d3120be8f569409474e6161b),
  (0x24690f83b9cf94a8e34852a50d24da4c24d2ee75690ac56bfb334d06e37d49b, 0x1841ae9cf0fc747ef759f5e5df62db2fa470e219b75b72d7f78afbd9d7a9fd3f)]

def fullTwice : Pair := (0x1fd9ff0127836eef31d62c24e380e9b778583d2dec97377edbeb234d7f772dff, 0x1626146fabcdf2b3661eee13e06f07217581b0bdbdab7cec5858d710e1bc6d58)

def shortLast : WindowRow :=
  (47381, [(0x29550e1a502d19acf13294ebff59607f00f5123a0e82847e379f3bb9cd32040c, 0xd3404b94b613faf9ab030b7f1691d0f9b1a03892ddf8ba4afdabb99dd99c6c, 0x22d4782ba5d5cc8385595312b0bd0b98c1cb3dbb96cc5f1a22a8926c74edef31), (0x23c8fdfb8dbe130dcb2b86b2b8913de24b6f3def0d1486564306cdd175cef1b7, 0x1185d8a795087ef2aef37069f03d68215398d7e22a69fdb91a3ae7ca415d2a0e, 0xe891aa3da9b73280e98d7a365e9a82a0902f8e6850205dbb4f46f033fd56f03), (0x216af547c40fa3d054af1bcac53f646fdeffa5643e7fc3f9e511351373662f8b, 0x687a546def35f50cdd01b63d71129f7c6c49da8aa6d5804e00818a061cb168d, 0x2d84c204596eb4bcea33da22c5510caae89795e76e1f35092f3e8f1bfb23d7df), (0x1ebb4f5ed551b684ac16b5054cd4f83f71dcba870393ad7532a2fd9668dec2cd, 0x26f68562eefbed4a9158dd241f959d905b8f71c0abdfc5a546b2d74df83a0a27, 0x723fa705736f865a66faa39be51e3b92f0e2f23e68b6874a6206a34b1150a7d), (0x2a613ddde8bf20c86168e8c2f672a899778ca930a7bf1507f4fbf140259d8e4e, 0x1b0315f2d5ae01fb6d0d4efc183601336ae3b03e5cdd78657f27516e776849db, 0x28b14c37e6df8ce8674c7585a5b518445cf77e1073154fb1499a6f8c7f8af5ef), (0x4798e53ed90e883f644ad76a2ebe9c68217a231fca818aec83fb876400ce539, 0x2270e300b0bae13d164cae7cacf438edd231bb5cf67556e6c6271a63827dfb7e, 0x37b91fc486249e97a8eea69e167a0c81420ea10511086887b3344c8e68c2de1a), (0x2b2153ca295b28d8aa12df52bb94a557935789ce65869fb379a6ec7bb753e07e, 0x3a78974db401083437af518b4431c8311caab4b08220c383ab07e6b6cc640c40, 0x25b148935b956a0f97c928a7da0e6764a25900dc2ed4b8f76e3789b133abd2c9), (0x323666f23bf211d10979b2985a0274e6b100ec13495edc89ba1d8e95a8f3c6a, 0x2a848fb018702bbeabf9a1db9464038463ea77d72e19d8242ba40983063cb999, 0x7005e23b8c76ba25754216da52a40b2d0d24f406f10c95ed537f84883ea53db)])

def shortMore : List Pair := [
  (0x1b82cc36ad3f8a6bebf78cc55eb81a31d4a4e570bcec3260e128a1a295e118, 0x3a293a874d590ab793b22af162e63eb0c55421fa8d6fec130c72d5b7d18ae35),
  (0x130fd8a5e89855051a1620e4a6a88dbc66e20d52500ecc5dd90b83799b252c7b, 0x110654a6cddcf4ec1f050be2f6aa325d905a1d801d9d304044a298b42d5de45c),
  (0x46335ac9be51a14a68b2e56cbece3c79cf09b46349f679ea6bde03ae78989f6, 0x30c526ca41f76528a4904ff74f860d104c1ca9ade07424e4e14b1501b7f2e41c),
  (0x2eec5574d3a318f125c1329a62e951839b395d47c7280b4089168bebe1ebffa0, 0x3e1215032705977378ed5c08cdf7d0e0d3dd448449690670c76f352651f10fa5),
  (0x20ce26daefa6dd2d78a663a15c7e663e6545991ece00cb912f5282d74856e660, 0x39f63c6814d9ba34232be52a1413578e8d3174acc35f3f41956e7349ce24990e),
  (0x25243e8522f8b9f8fa2b0c2ff40537a64cf20b16bef373ce31cdedb5fbbca457, 0x2f94dd67e4848108e7f460faf3292395b86d0aceff55532d70c1ec1ded682b24)]

def shortTwice : Pair := (0x12eb20c0f1e3b41075d11e1377733bdaf59aec6f02287f6f6c3a1792f5893616, 0x123bf128c699d4b0b5cc14bc52f550d34093e9292c68a7d8e16db1f2c344a88)

def shortRows : List WindowRow := windowRows0 ++ windowRows1

def fullRows : List WindowRow := windowRows0 ++ windowRows1 ++ windowRows2 ++ windowRows3 ++ windowRows4 ++ windowRows5 ++ windowRows6 ++ windowRows7

theorem short_table : TableOf 22 pallasGen (tableBase (shortRows ++ [shortLast])) :=
  table_of (m := 21) (more := shortMore) (P2 := shortTwice) (by decide +kernel) (by norm_num) (by decide +kernel) (by decide +kernel) rfl rfl
    (by decide +kernel) (by decide +kernel)

theorem full_table : TableOf 85 pallasGen (tableBase (fullRows ++ [fullLast])) :=
  table_of (m := 84) (more := fullMore) (P2 := fullTwice) (by decide +kernel) (by norm_num) (by decide +kernel) (by decide +kernel) rfl rfl
    (by decide +kernel) (by decide +kernel)

end Verif.Lemmas.Ecc
