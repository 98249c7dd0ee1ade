import Verif.Lemmas.EccFixedCheck

/-! The cells of honest provers for multiples of (-1, 2), and the coefficients of its tables, as numbers. -/

namespace Verif.Lemmas.Ecc

set_option maxRecDepth 100000

/-- The coefficients of the first 21 windows. -/
def lowLagrange : List (List Nat) := [
  [0x1c0000000000000000000000000000000efee2ee4411acfc1303c567b0000003, 0x1a9d13e8a8d620bbd1d4c870d9d7b4e2822fdee0e7d76a57f78d2f39d0aacffc, 0x16b27f17751516f5dbaeb6426d4491431596f3a9c0c4f02f980484a964a7961, 0xd28747f4a3d9be8b80ca4ef18f54cf72f8a90562c5af3c3eeabeefef4290483, 0x17c85ce4c5dd735f5c1c8ffd1ced7435f0e8ba77a71da60b65f3b2a5f2225d6f, 0x183fd637d0b22f8569c7fa77e8fb1464b536bede2083ac655055fb9bb0ecc984, 0x310c23ae9d0432d789db3dcfd8104c59f9e74bde0dc31010d16f61e119fde3c6, 0x22a24f4b1cb0841d80f0249e4fb4bf6ad4b08c3ead282b130901e0f5230779ca],
  [0x2b63203d6bb657e0ede720751857d3c1f06b175577cb291ed5257c883aba0521, 0x35c7668ab74b2c71e9f02d05369820398097c5ef152085ac089bcf531641b1d4, 0x10615c9331cca45b8d04cccc2f3dc25317196348f0c7365daa7e7a9bd151a624, 0x10198f63720a090f2e16557e8b9517ac9670449eadc4fad55e009f2fd3cebe00, 0xa52acf505fa433565ca29f45cb588440c48656a04db174af504fcebfb8a0e54, 0x33a444c61f1a302aa007d1e4d7fa3d0dea9b6761e764b440b3355bfa67d7c99a, 0x28d097b5c0a31e3137e174ae71d275a1153260d437a8711cb7a38c3f7a0bc5b4, 0x2e7e7e4386e0fd33aae72d0f7b38171258927e2f2839523c1a6c5ad369a6417c],
  [0xdec67c5865cc934c6c5f772ce6499723d8b8b7729276803c9db0f675b85d2a3, 0x3447e4b1f4b99f2890e31836d13b5fbab3201f0cd5d6c9c54bf1966b1f38cec1, 0x279b5c9f6d54ec176c2e0fe52e6e593e9ec5179bdb1c60a712b02c0fb64143a, 0x25fecfab4977bcd5b11c17c60840dd78af14d3b835549f38109bce7abdd107cd, 0x1e62ced2a459d1347c8b84ae5309628568641ed16e4a283bacf6642387c9adce, 0x172382bbb675cad7f1f3e47d34331bc8e240809f817e0775f84f9f539308fef3, 0x22fd3a93eb2a3d54476222f10e1fc39d720bdf9f96e3357de833aee7ef7124c4, 0x34a1fe80df6158938c4b41926e11505dfa7587fffa60c2a65fba9aa5df80ab97],
  [0x1522d5a4b71211939dfe3b7066d27c8aa09415d0c215c8e5446bd74b84ee40d8, 0x71a5c9f11d261658bef95ed1b0725a0b4b94a96223aa90f1d7a607a142a02d1, 0x289093d20d7f1c6b7dadf5c64cbf5c81e55d2dee2cc366d3166ffd9e1fe71013, 0x33ee27e8e5d8f2c1b12d919a4799ba7375bafe1cb372f33998c2be7d9a5d38b6, 0x27b68785acc131eb3a7c1392aa2fbfc4ad150791b34d9270f1387ac3c47e0f07, 0x3e3f5c41e6bdceb19393111755cb67bd5208dd639b4a737634870e7beae1aee2, 0x23af068f9f0c4993e455d685c885fe0e1c8075a50074197c0d557419d1949e76, 0x25d2483eb3092d290640e4534bf36d5608c520cab49dbd9ec61ff6b294edb391],
  [0x2138dec9d478796ed51797e095f7333bc0e13e4b347b9f9e8008f2698945e3ce, 0x2e5bfe4991d192f1dca4cee55c269393988a124c6bb3f02467b2b0c8dd3abf27, 0x363f20f7786c22e091d204e1e9bf7a761d377423e3975e2b077c7827ff905dcc, 0x40fd227387b9e9f09a60e8fdf9d1cecd5a49ded000af7338ecffc3f49cf9a6e, 0x8580cfdb7f327cabfde8bd0415e693ebfa916dae4cb8bf5eacda22489f2c8c2, 0x25571f0677ada778704e93f51992f4a53b38fb5b2e0083a585fb140f195744b7, 0x1e84571395d7d834e95de9f61131b91bb6952040b9a7a26f0d31e1b6419e2122, 0x2c90220c811b62e587b6a1b55af0403ba6e832660f8ae8612ea77dbac5459da4],
  [0x1f7867fbf8ba29771268a7ee1915a2fcafe5fda4b5f7c321d88066c30ab72815, 0x1f923ce561a13d4d0569da1f86a2408e5ef2db1894cea736b72b0a3cc8bcf3b9, 0x21c952fed6d49a235e5e76d948b77b8c9de4b7071c1909bdc6b03983ff01d00a, 0x1174c43d6e05f6d72c4e6511e4dcec9598615bebc8afe48051bada91647948e5, 0x1da76325262d3bbd33180ca530a91d5bbfc2f5976f2904ac4c4939e949b94870, 0x33da54395b95770e65460ce51511e901ac87771544de5feac6f862f420decf43, 0xcb7e6a2976ca9a2fb763fc1fdddb4a3f7fdd92c998ee7b74f29e358ff5bb807, 0x22f7400e77d67989afb6ba93cad9f3899419b034d234f6180a9736a878a28449],
  [0x29fae509ddaa173033eab1e9bc38fd8980ede4f5e1a56e5d96c940e6ae3a2cff, 0x7331e91c93f1d1b889b52b3cd02b8307ab4efc02eba7634694e2c6ab0850be3, 0x180fcb8289d198a236a94899cd11ead0de7d884e01402073087d1ce2c05583d9, 0x1095613826ed1a0367a51374d98d410216c3540eea9a0defb4becec1bcb1c59b, 0x2ffe876f9e8a034ca5270f21f178283768e074574bf00503f180ed9bd113a975, 0x62a8d138f008154840e56be87be527dba7c415b1f54d1ff4b3e481881405df5, 0x38178e504ab3518e46b1e5ebc820e08accb932954dc273c1a38d2cbc84d3c56e, 0x1fbe4fe744eb835c250ab981ff74db6530448cee56390b518d352621fc3c3f3c],
  [0x16dc2168a0d326fd416a3043ff4756d9ee6bd72e2c5e3f50e478803134fb5cf, 0x341e1a4dd4fd8c1143cc7261cc9021776266ca90dd968fa8332b8e75bcf95a03, 0x2a7a5535e019fccb9b8da998644a75a240a6ff0012bb90caca2c6da879355b8e, 0x3d955eddcd49c04f10cc8d345fd7d0e0a49901317990a98730f652e14fb0d74c, 0x674dad6a28176c2854a3d42c55374f8e53b4b0f41f2b03d41f56b7e034ad3d, 0x159050a534ff79dea368dedf84b76cc8ffceec91f7a3679e56c58782ab0bfbe, 0x295d6282053399ed5dcf895369a12ed8e9afedb570a109db896e5f992e7ca8f5, 0x12049f44edb2b6f5058e02427da9f1e37209f44c6eda896047e7a35c1cf6f0e0],
  [0xadece9b94a0141da7378b261047c0ca24b1c1ef05e2055d9ace940d47867319, 0x287388d9098c836a682f47f1511c521f81d3443e41c522a8d0ecef31826268a2, 0x3d1b289d793e505025bce82c41aaf2e8592f2a55687d2db83a18654eba6323b2, 0x32fa11e193159e6b3a8d2b99aa6b87bce1dcadcfb5e831e09e4f2af5fb9b9b73, 0x2e923019bef886c40e479eb6c4cbfbbfc7c5459183ddea78cf50c6a7c6465f0b, 0x2c6517adabb03082015152ced8e6d327ac1257e7fcb3973b95982e140d4d90fa, 0xa0177923fde2158ac31fb19b80bedeae10b9a230ffa78b44dcf7e36d54e0bbd, 0x14d01d6adb25cb2a41d2f9526de16a02328e1d7876e3203edd6e8bfd24b0dd27],
  [0x7924f429e6518fa218e3b2f7e145a1a4249c683df9a383b64f103dadc3934f6, 0x350667a1be2828e1fb4fcab55ecab7f22bb11fd3ef0760b12e5feb9588ef36f5, 0x12a2ac297c11272ccc5750e6c81509af3eddc6fc19f0f07861fd39fb06f58755, 0x319c785e743c9fc796e294425156d9e1815813d309db609d940a015e693bbc7a, 0x3bf264fddb1811ddd6412e44c9edc8a4ba139f190b289e6ba7b3ff0001d05ec9, 0x7828bd7044950c08171ee7f73ed77cb0301b6ef46ddd96936f0ad7295ede8a0, 0x27ef4d8a494612ce6bc1827d3669615830951e388ce8ab7cc3b949ac7545c2d3, 0x3028bf08dd590f8715328faca9fd7c876e864ca5ce3456aa786dcd578a99fe],
  [0x24eb81f7a3878002004c0823d822924e17085a3779e20797e9a42d9530343cd8, 0x3d547d0e3781bd66e7a904546265a9d75add56b70f2d2467dcd9fa2e08e2a281, 0x7f655d31d850538111b29d9ac8129e9c9fc6cc20cba64be1b468af219012906, 0x3bb5c4484b895dbf2acb86d39138e17bd8ad8760b9db20bc49141cc31ceee77d, 0x1f4525eadd55658432a724d9877f3a2232eb0b8f38eb4b7bd2942ef532f2a11e, 0x22c2ce23aa6de711e1d70f29e2f0059fbcafe35f99799631181bd4be9372fdba, 0x362d32187ac8489c8af6a49d20def07fd51f3836fefc2dcb344aab9d59d9d391, 0x3b9a10ed1b9e93f6d9f0acb8a7381ccd1327f52be470d2c66bf692d6eb1b2040],
  [0x39056dc14eb71fb4565c2400133ccd33ea4b0a296ab539f1dff3669d750b7217, 0x3e7276a99ac96e9254249800b16e2922af93dfacd17e736e6bc7159111e3bd74, 0x2eca778096e8263c36a5e224259ad7f54ddd8932fbff320403fd27c867791947, 0x931c17ffbd69488abbb648252dcd3efd204104f3d8f0e7961007f7425f28047, 0x3d47cf78fb9a59dffe621e89241576c635697def8dc45f1508ea051e26027925, 0x7ec8b4af3b765913f5681a6753aa5c8b709b9f56aa5d868b4355ce3fbf64778, 0x29dea480d39718f039d51ee96804b51fba22ce8b93ca2d8cf25d6093eeb4b953, 0x114acb1f19997824470a76428992e8899d78a4a90a0efcb3b0926a2ce758a1f8],
  [0x3f93c36515527fb128fd02db96b42fbdb6aa4233f1615aa0386ee16170928277, 0x28d9d35bf5cf1faf39ba1861f338795bbde927ede6e51099ff19df7943d0da87, 0xb967dcf038691d9f3fe4b165c59116162a09b1b18d03d8af7dea1e8b5ac55ab, 0xd9d9f9306966cbf722801edda054606a2200fffc89cf8d932cd0cae3e2095f8, 0x190e5a54f6acca7fbdad3649e358e1fabaa91052e7e3dbe8349d1de4c4fc1048, 0x22f3f2218816ef7a7015c5243ddff9b52a5c756a3a232dcc312bfb9c4a7b1e90, 0x3851ab286b13ec063d2373e483e0ee4397b9bde26111140aa8f3aba70123bf44, 0x243c1d9056c638c036bc8437e7a7973be2d4f8609b95e8ba01b183892b8cc076],
  [0x3959635fe2393dc1b12ec306b1aca45a80574b74b7e46f39b893e430eba317a, 0x166125bf86cda6edaf248fabc39a0f8cd31ae48147d1a7364c74f79959fc1428, 0x2fc5a360b08f9eb7bb627da71f4c6ac35b6eec70d55e3759e0b6bcd22e3f96e3, 0x1361ac464a324d065a59a19265228049cba45044a57d134b53bf33400b682e44, 0x38668fcc3e1b05510c081cb2164a4ca8dc5b54ad5b24f3a967b5cccf8614c13a, 0x3078c9cd3673b821803050f08cc470fcd89166502d7b3a4961c7c6b10a431af2, 0x37426a70495048c233db7f22ff45174d35f3331f649dad530312a8024b3312a9, 0x16c365d4b3c55548c7fc70b311b0164c7a9ce8434b1125ad13f6091ce15e832b],
  [0x28c82b5d9111e0ad77369dcadb243ae7b9d27348ccf3c681b1de635b46944452, 0x2801b136c777ee34940689e8aa52d0c3e6062f6a4ba0bd44a5d196b8afcd2319, 0x10f2f35223158cdc8056f2a0cea10e5b8248d927a3c8f459bc01d996cb019431, 0x84258c9c771000fda03e27d49f49792ad9fd8a7de1e5fb66897e03d51a31f7a, 0x18bb9245df4b34c83440c7f6cdae3bbd4cf31e394bd839ca922409054b090e46, 0x18b8325b3635fc929ba8baa6c043a2c2b6a4f8c34d2b6afdf730dc93f47d8c31, 0x518247069b9e5973587ced089a1f1259f5fafcb2c8a9add6c508179e1a4d611, 0x146f6c03c2fa8dad3be44ed4ffc7ba8cd4c54cb3abf85492c64c39c9ddbabc19],
  [0xf8f507d03a3c83dee6b35d3274e32315f6a1101f01b5530e885974cc1994bfa, 0x2c591664a17e16355704977b548613248d741b79db3bfa42a7bdf95c5ea10bd0, 0x216843becc87cbd881c85e9116c2f0981a8c0db87d8b43264ee10a67f5ec6cd, 0xc7919caf887162b08c441768fa97eaaaa2e3a830614296087e25f56f0362fbb, 0x37ca19d96159cc6fea60d401e6b0bfc47ed097ba4f34f2bea4fac2d424411fe7, 0x34abf0d738a9044652df4e1c18778ce32214c790da8d34ef66de33ab787a354f, 0x37bb52d4c4238ea0b6ff8c188d55142b8497f61855671bf294dd2a32375c900d, 0x1c9fb2e1b2acc701fb9e026e4aecb0c7fa6629ee9b135c21f57ffb05e9050ee],
  [0x35fb5064c1dbf0fa3c81ac263e078d0e75793c2f0e460c79a784b0109fdc161e, 0x28d14b21750b9294b0da2c73cc1f2f87b5a987ada24f83458862d334c7735150, 0x3ae72eed9d5b8cfcdd107d110f0aedf70d2fd67f67b5d0c01db8ba86d39255d7, 0x15701251606c164ef724b235d2871ceb9fddce232b7bfa6c42961396d885cef8, 0xe4beb86139786d68e65bbfad11f444df63cc8756c541fff3417ac1e631ffe3f, 0x353052efa9362024d62ce8e3a41b5dabea5e4f84b02aff0b336d1931eb268f93, 0x1ab3f2b3006e03fd84988c260806380631514f1eb585127c14daf97ab69b7679, 0x117910b578654a2d46230a4b40348a412d37f1c4dd07460568dcf968b5da0170],
  [0x1d46588618dd0f1332bc6a096ef6647386de899a13088ba28fe738e3bfdf1e0, 0x2c3719ebd6201e291ef38ad304f7a7bed232e0bce5171c86f6d2e8260abb2a46, 0x258173c8246db5437c085734cfcbcfc216330da0c7c2ee9b5030b9d18b2dd27b, 0x38bee05960cfa7739ae2285bf990ea3a43b4c97c90982bf6c2a2086ad8611c8d, 0x354784f701958379a439b4ac120234bb782949d9614952939007ce02ed3f6e16, 0x13691b76fd64269c67e8d09d707dab59fcd0f6ce42258209593ef16aa61f265c, 0x2415c25c796ca139ed77b835088f373ca8cd20bfff44d911304807c63f3466b0, 0x33b860f9293c8cf11d070d03b0a55a46df56292fdb7476eb5d57fb06864f0b77],
  [0x21335f7d664d3fdbd9c75312e1cc4f6d1d4a1fa1408a28dfa3a4dab46f8049d5, 0x2ecfae8dac69072053351e4a38be01275694fe4f01e9c2b7ab61243fb01bb581, 0x1d488ce70a271ab3edf348caa80ac95869d36fd213187fb451af67cc2d51b58f, 0x1607e6c0a9fde6e8623c6382ffa71ec167645da9977af917bd22060d895ee782, 0x181b2eea3eaa28b19446adcda5b31ef340d31a68523a67911bb9a1d82259d200, 0x104e5c6c9a3945a8a04003983cf122205c800813448927807c26add1b5dc4f7d, 0x425c4cb32da5e41d13b8ec42d1d1fb990be14b2e063fb6ac6b35b1741595319, 0x13cba2face6c607f2d9939ffbd07a1a925c758ff09fddd08373d2507db103690],
  [0x3bd3d42450e89e52078b029c8d1d6869ada42e72451091dad3f403103098377a, 0x3e8c0a2478c2ae5f25f74fc0a262573581ed0d92e030206f0f16d3c83fb624c9, 0x1cca35e39c1dacce10249ebb8dfff5967b74133035a15723a5fee8a82d122293, 0x3407d240f213070127f65fdf4bbd39b21b69cc6c619f5377a8a9204075ab3ce8, 0x1b10605d14cf5bef8267b7505832e5f148a8a2ce9c60cbe5c70428db1a7e5373, 0x2c6389dd19b3319fabe36394f4772c532fc81d2c7b8d7d6926bedf591986f7fb, 0x381c63dc46ddc2dae08b709cf689efa21e767f06ea5ae847878a39532a706e46, 0x8c12572b50e949f977f2e40dbf1e4d036762b4e83a6d1295c1c91238a4054e9],
  [0x37c04b0e8b2fb5fe57240e3a1d1d7f804607f3ae1297830268a2fe3b5253c298, 0x2b43068c53e9080c75736be2c097811034a6d875ec88d7eb96854a2e6e712bab, 0x18b91b4a33230bd7d9c9a02fbfd85efba4b1ac9168baea1e4b087c5485705ea2, 0xb2fd68a7a100f0be520b2052766ee7defe7391387240ba5f521d7b2368ff8b7, 0x3ac74634c45b18217d6d05088562cdbe3eb08bd8b02b26a0a2fa8cab47afdd94, 0x2030240ad8782933b0e7f895d40cf7b4614a8653984e694015cbeb6d3cf5a388, 0x289cb020eff62bd21c00742fd5538dd6c052a57106c15ad631a0cfb4f32fa839, 0x37cc231c8ef52a200eb0658e5237f38626dd4151dbb52a8a1c7d49595ee0b498]]

/-- Those of the other windows of 85. -/
def highLagrange : List (List Nat) := [
  [0x12eb20c0f1e3b41075d11e1377733bdaf59aec6f02287f6f6c3a1792f5893616, 0x2ce07b3432d8cffe405b38bbf7066ca4852d27d95767e140898ac573042ea32b, 0x2843b53ded48aa75c4539de1b9c26929901759743d9608c25e77b477c419f5a8, 0x3b33559e917e52604d025bae058995a5a839c6fff7d2a4eb00e439a97461dbda, 0x328929cafbfd4991df4b01d3c519a7bb54d4b278e99745cf6d83e03cd7adc41e, 0x2214fb70f641fe764a9cb8768bfdbd8565bbfb960c76dc950cfbef4e97609fc6, 0xe099cb71f06e9d99ac0254f3ad2dea813e70b8b91fcd91ab9075755a4f01c6, 0x32d241ee87773b116578d5e2cc7737d719908bff2d0d43dfbd2850b72a75bc28],
  [0x1c621dd39f4ef56e83d007dbbeab64589cc61bf7befdbea26a8fcf621dfb0209, 0x1098e42e4cd4ef29c82742527ea3233459c700f67f5f3a5b4f43e822d652609d, 0x2fe0805abccde0047cf5774d8a319df70cfced4107f54405ed6a9828d99d9e3e, 0x204ad63ce6eebcf4c3e5c51d2ea087e0821705ccb1c697dcbba9bc18a604ce7d, 0x14fe2a9265fb2caa03bef671c51f19240fcbc6a3e188c2c8877cb9b063e81713, 0x17d51d43fea8d6513d526c4c49012a7de0ed1d0d2cf318050e7f3c38b499f43a, 0x8338ce2b28a397f5ffca30cf5a4d3812cac2a768ec7e506d44bef540e94f452, 0x1605c4ff0b69ba2d4f38d5804d79d7b9b67894a09b11c7f4ceb2194ef5c9c908],
  [0x34fd371d45e30d694e9aceb9895b4f954422a96fe87388e6870c89e882f2043f, 0x166c9132f6871a56ec38316d0b6e4c196eedcb4367f3f1b1c2a46b18a679b838, 0x17c4a33f524378a213b1648a3067ebfb74977c4f302d6380df366e8f84fea960, 0x3b41c310af63d419bf0ddc4d1a87e432f958d2cf9eca0d08a9a9e970519c5c4, 0xafb73151c4db013f8adf046ac340b81adef3a3429e16cd053ef8121959bcd48, 0x3f76d07bf27c2d6b6fe53cc80f73883fcb16553185a1b920fe3feccead507621, 0x32a4d84645b8ce7ef9a0a9f1152e3341476684dc194cd70749468ffe006a1c5b, 0x3523686fe188c83ad2fc102fbe25a4374e2e09f11b2f76fc02ff408c0589d223],
  [0x178d4fae174ad48898b0d06e098e5cb68a4e935c651471f7c0ff7205953046cf, 0x74f26ab0784c475e8aef421be90d76c5cb9ad1cc11f8864dca07effa339e2bd, 0x216aa1f82a18c2577f79eb2f37d055351629121b50409eeafc94ba26658d177e, 0x394a81c0ae86e6a87a05a4dca1b5bb6f7e55cc31cbd7ec0f5d9075c355dfa36e, 0x1c87b87c366fba5a3cbee58fc6236fad242b55ae0db0beeb7534c4f989b20bcd, 0x1f522dbe4a800876f25b43f8a05d927db3f1142dd8e77aca4f2e0820d7f3adc2, 0xa4b35d91a2c879574d645cfdbb72cabc33058c7cba794517dd4b93897ea0694, 0x107a57e6876525a862ea25214f1ad182a732096c046167d2d56b3fb13d6ea471],
  [0x3e29e02db7acf0b38b362ed996a8fbb0aa2c59b5ee61aebc7d4619e3443d8047, 0xdb0545923016f089288c3d1fa6c165aac71e1a2d5898133aa64f078bb043fdd, 0x1fb603ad4534798e4a116f63ac8123cc566ccf302075ae7c65e25de677f0b51e, 0x1bba6c93985f229efc418f986ff64a852ba9a410aa42bf4b80cfe05e71d55fff, 0x34c1f740b7a2e19d1ff3142c7597ff3a36a7d3dc699dbaec0a1f9a4e0fe06a5, 0x625102a2edfb45b149079e33d56799e21681b323b5808cf120f6c93d7be2832, 0x1505824290121a0b84a33dc5d503303a4f50f08df57276419dafe7b7b5f07dbf, 0xa7ac665d74a750bcab08b3a6cffd89a0ea85d72496a5c2b776c8c98edda2474],
  [0x919988ed62b9758051278a783035cdd1ddb3dae2752ebbaff3ffb6493e67ef, 0x3778238b5d3a9cce7ab33222e0e4ca74d15a3c88ffec9e8c4baa7447e02ee7f, 0x2adafc11d480d7aaa06e7019088a882c190091e7ef563e55357f70e2afec0224, 0x48aac2f0d560d5e991a8c8aea2c20f23728a96ef53fe0c2fb1352d041b4c853, 0x1ff89dff6d13665577cd67712b03fd2a0530b1fed740cec1953afe11baf2ed4d, 0x2e3cbad3859b29d9e115d27cb5f2f3666774a3e271774a1899fa8dfdcc2d8c1, 0x97b86a7f859b83fbba7c7638523818f1822a9186bcf5d763ec0d20d8e8fda6c, 0x2a96e005be68fb7e977a5f0cf1d3242df6ec028a1b49aa9cda2a8816616b8bae],
  [0x2117e401d3e13bac36cf67ba4c5e4087dcdb1a432d2a3c730bfc42a22713a394, 0x2af6dbe85e1439691063d5e2f0fd4d442de66977559b0fa33f80f326d80ab911, 0x3b50dc34085c962bf2945801d6196bd5ccc73ec6d9680a7916eeb5578f892cc2, 0x22e63d6685506d2265353e238243f0b8d990a646102e8387e9e0493ceb081e3e, 0x14bda05606a3bcec6aa1cb44ec18498aff74b66da1d4e2050bf67d56439601c6, 0x11d7d5ea77a341018bc96c26c2a3f836431da290da4632a57f982b956c85efd3, 0x15502a1aa1e4721159f2980c3a2d9c9a7318eb16421aaff43570189d1e258d90, 0x212edec8f2d9c4fbe23e7549698a9c360fa185200c23be69e45089a5ba722104],
  [0x3ea8913f98ebeb383b5b2f162a9530492ce9fd3d7646ab9dbb6757907bdfd724, 0x130407f59fb463e7ce398dda744092c42e969aaa33c212c9d67f5b814206a95, 0x129a082a1828e7247d55807aaf18c6288fb7d67397cf7530bbfe0134f1d84f78, 0x799450f23320f50904868092a8b504712f52dde89a14e1dd596b3afd1ac543c, 0x1a2e7a92f3abbbe8f8ea3d9e4be941435a9bae237ebcb51c1b05796f082d5eef, 0x156ab4d373e9bd8a32d2c9060ab214161ad87b0a9e8a3c0f60e692cf87898f7d, 0x2282b078cbe9eade49ef74a4f75f263174952cfc07c652853f21439c9139126d, 0x3684288b48713950faa86b2191c22569f5ab16203bb730ca8eed47267c349c8d],
  [0x34c7ed8d723956c67e76039bdd4827d83cfef1e70fce6b8877b96d32f0a1b89b, 0x19dfceaf0d1d080001735a890f3145cd1bae58482e8b1e11229b8d0f543fb256, 0x19d7f00937c64ba8a15c6aa8ed5f8ae718f578993c75e721c016309c6ff01d95, 0x190482477b173c84ba24a63435c338afbcfceba529f8ccd0c814a2656753398c, 0x1dc357932968f766621ba0f8235307d0c57db6c8cb39c5a6f6ff7d20bf5f1f4e, 0x3085056037db64b81e28339238e5efd4f47c6f157bcdd672681a93caf33ef70c, 0x2b53d7c5bb8206ae5878b5e8ed026d056f30dce98e336286d27a59127e2794d9, 0x4ac40bf351dbff83d4308a5b137894951cb3d01173ebf82f83f7f15c2dbeff9],
  [0x3eb800206cdc066757c6d725ada8bf3f275c828857216967797d095e4f7c39a2, 0xe6d8e676ea35f4706d8d7a8872efceec709cfc05d2a508d31bfd6543cb49a8a, 0x3ca330c2dc1a3f3d0059065f20614c594ead665e4b6401a14039fe131d7b7166, 0x1675b37aeccef167bcdaffa0c2142c1d90fbb0dfe54dd52466f4896a55e14dde, 0x1dd786510a1756d4a78c335ab778fafb7b2d34e68cdf56a5dd3df767a32a9509, 0x261f0920fa65713fb6f9d39702a28beda66e66bbf67d47d86c4993713a2bbb0c, 0x126572d8a576fab130490e59512b88397862e70de3a97d78af21a20c8ecfaba3, 0x251e01ae41c3d838d18078a48fda849d76d4affb49ebee3158f786dc7c13678f],
  [0x2f7f60f5abb9d3f79d25dc740ba55920d510e2f28911f2e80e863a01eb23bd8e, 0x29db1574247400396bd9ebd959d118e0c5b1875c55abd3d3e5d26c1eaca337f0, 0x5c4f0416662155f1530f5b810f3b303d36d919644778e70d95185309912d66d, 0x3f4e251f945bc43a1aeb43dc6dc9295ea41948caeb71b5599f87ff828364f9e, 0x7dea304432e6963e5cac1b912bd8d625908e11e2fbfcf77b81ce385e8ac98f8, 0x3ac1d26e1012dbd0bf36d3ee613ebd3971c6b7cd2acda1292f412b41c48f552a, 0x24e704dd9612d19edf4ff42527eb7184626951f714429d49b7dfcb73cf7bee9a, 0x26b5831a2223b6108f61647184bbe6804f9457d11f80745a5d16d4cc1d89c56],
  [0x38012b92ee0e5f07f69a5bfba3e3630ce88133ac9d97ff8f6958f9f23bc5424, 0x156372aaddd70c944e66ad43fa1a8662f813400bea3553d6542991fd0caafdc1, 0x639cd27e7c77dcade4814345c455afe6e9baa9acdf72bc5c9c2b19d21490149, 0x28ed10e0c5568ad38a1efe21f17178cf92f63d70cf046da5ba603d30ae7faac1, 0x35c74a5a79e76edb6f179c1e2e0aa50fd65ca8a2ca9fa08aedbd90432289db2f, 0xf2b77341065beeebc6b1623d3f5cf1c53e99a7f11f30e32b105363d8d5d3c0f, 0xed05134cdd673a1562d465437cd7aac1f9778367f8693d6cf804294954aaf21, 0x11935c81098d727def2b1d17a58d5e66369b283ec6d6bc3664913b9d2445a5e1],
  [0x12e90612cab7467e9521b465f994d0ff22a93872a2334b81771c18d6591c976b, 0x2ddad13f671039257f825a847f11015a1b7f440427eb2db388eabb6b62ff53e7, 0x301cd05503432b52a8fd81415ad535af49ea2a1c15d45ba2d3a9e156522ad7f0, 0x1187fa150810c8f697e85b4c727beb3932d21c226327d9d8ac4eea9d1f0af33, 0x2d0cd7cf5f595183e63efc75f41afe1deef975f4b213a0310af160d7ace3063e, 0x3e296f4a198857db1d6e745d4f31ce5d8c0f4fc0ebb51b90c931bfd771959d02, 0x278cb6d62fa8897197a3d166dcdc7bb658805c4cefb45e8095bf0a6bf0b1c187, 0x2d8ba3085b063d4c3a26c9a4d9ecf21207a8e4cfeeebe57df29bae98d8fac12f],
  [0x3a4cf623912214bc4b88ab6ebe66abaead76c68ed1037dd62fd83a5e73f89722, 0x122896cf401e57c0f7f4dd04ae076c62f815538c1d3e488f6dcd82eca0e729d9, 0x302c8c93a616628dc528d89d9665f2692366c96252415262126c7fa49baee1ec, 0x33c766bc5b0cfd76ce12999497fc0e63bd649138d11c4cc070bf51c615eb5a37, 0x39d5cae0d622c2f8dfcab845b4ed281aa1797d039668bec281bec070df6191b6, 0xb9079595b9e6992df6016fa304a670d80e3a160bb908e3bf77f04ec403f7b52, 0x3b7930fc2a2feca312cd7c84bc0b71d967e3eefc27f863feaaef05a0c99be238, 0x374a41438e65ae1c22d888a66ff9258981d0fde2298f5035333619d970baf71f],
  [0x3035aa0368e48e8b88656ff400c1b03806de26e3f2d4642e6395e9bf21117ef0, 0x1e7eabd2221eb4c0943eda2b4d86c5c5234a0b4239fdef04d3b3c2a3176cdc56, 0x381eee5d328fde67c711cef7bbc3908a40ff7e9f0966f99f26cc772d724c33d1, 0x217e8d8425272593c51ba1ed0a1774df562f2ee6d885421f1606fba35186acdc, 0xa419b7d2e9581bba69e207eeda1bdcca507685a56cf83ce06cb4960bdcd9e5b, 0x2491157d72616737b86e1a9679050fd958f14484369325f4bfdab663f36601bd, 0x34408f40c26b086a862384e6f5d5718d4a13da78a5cc18f89e8b0d6d38584b42, 0x27063e41cc82fe98b9371c55e3412daefa227c6b43a99f75e34675b73e101322],
  [0x3f5142c9e8af8ea642c20826c7e727727034b9b0a4c0ba7a554dab4740a3c6cf, 0x2a8b8fa3faadafd3b46265a0a445e72f6e9f4ac94b6a32effc3b35794fb23fc8, 0xa7b1ce2bcb6c33ea8923f5ffe6cb2a45fe3a67c4ec36f69cf06da54d150b00a, 0xf19388ca4526f81f818dbf7a7df04fa1b4cd9835b09aa2879ab5360154f73b4, 0x1c651be1b38389a1c74680526e94feb93219997d214372ab4ae4b7b98bc9df9b, 0x1eb43e7f32ac71710acf4c5b1ea6c54a1b2623d9333bd2ed83971764594e051a, 0x17ec17a74853a879c201b4e9d6d44ba029ef80000e457820329f800b65e2f96a, 0x38999225133f5e9477c09e825dd630472c4bf9f771bdcb15d82f98d8a426bcae],
  [0x1f55b7f8c14fc4a8c2a04b056ceae5bdf27b1d0d32acf07ead926eb2509e5b43, 0x1197f8f63efa6a00d1894023a606fb08d5292e17cdbb26ba81fd5eb03fee40b3, 0x29787979d71c7f3b59023cfbde327c9e4ca722b0a602716833197191fb845fcd, 0x1204fb89da614151b2e8d121cdc50b66137af9468793f2b38c381bda8b41ce5, 0x2afd48d0c3e6a7c336d76411f6573ba7878db0fb00324431e7c15748e6284df0, 0x16264e0d71b3dcfcdc666a6cfbcd941a082b57f1fc9937e2f4fabda20a0bfb0d, 0x2598db4d27764dfc58f486e9a4001077a958e2f21ad61a535c23382921241d22, 0x237b795ee0aa8fe1711ed680ae9729496797af0db63d630d0e1f4b6ed098fdea],
  [0x1440f0216b8d4c5883905636295c283d3039c791e32afd7ec04f7c312f43b8b7, 0xd8743c02f83aecd5533e5e88080686225b2ac673eaaf52d62a17721f41263b7, 0x3479c3bdd7a24fabf8fc2a8bbb7a8f24abed1909474f8c406ce1e9f6d18caaae, 0x1ef31be3c4b43b92e6442a0e00dd8f5b851204632fc275fbc61bf22be7f61700, 0xc1c3752dd428af993ea9b37186746605de3b09803586a1afb19762f41af80f8, 0x25e365fcf150fcd9c50786023dc3d2419d6d8c04cb82982991fc5f34b4b9af36, 0x2bb0d5311eaa2e359b115cd529efe8b46c0277395540bb32ab629643bdd05fc2, 0xa3f01cc52bbdfb2a068272d645b82f8ac365c885a823791dd63905dcb82a793],
  [0x19b543cc2bbf3b6d4a5f9de2e4cb85fed093d48a283fea4ef1405464080d11ad, 0x30b48b416c09c2c9df5a8d030740fc25e247bfed598101306ab9df3c3bbf2d79, 0x11976a2614d93ebc3d1d21dee2db760633191b54bc1cdb188628a0e307eb0d77, 0x14812354b5723ef82d19d80337685d0d20b7a39938936b84a3d4f99878c81785, 0x28843bf4d4d18c8c6ac3bec346a0195c130bb53e6157a25071d6d7cdcca7ae88, 0x18753a88cd519713a9722c041543ff0dcfd63d0f6706293ed44de27f2735ea81, 0x3ab755308a06f4f01c46a56f46b7c8ae92f61a8eddbffa7d94b90a09c4f9bcb1, 0x245104b526041273e15de25ea011b48dd9e82f5c39d81f1b7a4f315b9d8bcb8b],
  [0x3ebd3d7e0ea0ff89d8cf19b14a03b6c049c4f26d6e27cc5eaa4fabdf74f3fccf, 0x1bfab6c9ece4974ee969b0f2f8045418fc84b257009e555a718eca29611e4005, 0x30ba432de966f43ab85879d1c8e425685a5af0b9d16728fba343356956db5d4c, 0x75f4060d45b1e0fb64ac094dc8e2bee30f748a73f0c59d948bfe20e6b719f85, 0x1046b450b18f528306c3506105da3ba6140b2bbf593518423dd91eb33b77ab5f, 0x32b7b7284619b1c11d950db4bb007f45de400017a607e3f28d09dc17748e41aa, 0x3452cf8d0100fd370ece166a2128372f46d8614d99a0be261c4ba3d42ff05a19, 0x3c705f240f90bb4b39828ee0b219a7030d189943663f333ee6ed42e6f4eaccca],
  [0x3dee2292e0799f13fb15160ca9cd2d536f152475e6c2b0f975b87b788b1bc86f, 0x34a46e224b47def6858ac509a4fa6b4c0eaaecd351e1396eb5ff2799ed09cfe3, 0x18f6f2c3eb3b9863eef764bea84d4f69ea97782826ddac3a7baad2f87a2af26b, 0x8e8c52fb4b2b255f07a06460de9fa65a2b39d2cbfb80db1c3e6518f735b1e34, 0x2be2b722928df880150fcb5ad0157ab7d68c717322119978a0b1201942624c50, 0x75346b2d9d960aa0ae526dc94a656a549bfc9bc0394314e2e0441a66a45862d, 0x3d83cec1c2de92d630ef07c9d2279e697d817dff7339e677ee2ba8e6e087ed98, 0x3eda8055232cf434f98e75f39160376eca3a102fa9014b3495dfd75013d07797],
  [0x3ddc2602361790f9edb41d2ecba5a33a58095e73b31f2e4869a0fa0803dc4843, 0x41e5e602137282c54a47f88a4926a1994de1aaa21428f5347dc87d141d717e5, 0x37ce079dfbfdd4dc94c97426018ab8cfa0e2113469344850e1091042aae1dc13, 0x2844467021c809c1a1c187e558dd7b13010234f5454e2ccde834b5e93d7a8477, 0x72e4fa8c794a9ec6d6c09bbfaef12b3dc658bbc5a39074771023cff436ae3d6, 0x3f909ff38cb9ac1be027eb9c2d3c7faacef001e9b165b827181924e1b52d944b, 0x162b99dc9161cfb9888ee6ff966e64309aa13ab79f5ba748633d40e04ead6658, 0x39c34248b1a35a9d3e26632a52ec4d0c11effa7f73f0243acc4851b7e5a28704],
  [0x392dc9cf65a4f53943553b33fd0bf5f003ba120db1b3cdaa19d26796351313c4, 0xddf515e82151f1a6fb75ead685c3cd3cb16eea72869161bcc76fe739e78c0c9, 0x1f26350401e9b8a22be754c7fe1d76cfbcd4ee93ebe45218feee9379a3932a1c, 0x2d1ee7fae69c9f3d873e394c4c393335e469af0629934569b375e2e4524df571, 0x2b211e2290d13aa3cdee4f34320cd2c395cb9d3f6ac97bfd4bdef4fea0ae347e, 0x3f0a8d5aa3ef10e5b42a0f20fd4e75a0cb3e58a53e4f4b108281e7d95d9c28e5, 0xe07d2f97b8b7b625f99d103cd0a10afba49c2fd109b2b28891dc066a968df3e, 0x286b7c7ccee61a4e0ce887424e5058ee8fc4e52c7516a3698ce23158ffc73d00],
  [0x297f6049ce4125970befb0c86d78f59a4dfa839ba7609ed2edfd113769eb7b54, 0x3981fea5b1088392e941724ed2c67c24cb5e976f57ca96fb1bdb033f1c0c1c00, 0x1656b45ab882673725f29beafdd99c52c5830b572b61406aa3098a9073421ff0, 0x3cd50b53d41f116b74f81161647f85278eff7336de16fd5538e82c05c0a5043f, 0x34872fa2a76e18fcd8d155b0d444a3a5ef809f7e6fac59116ddf56069a939e42, 0x34f3a5c07e9acf340d46e1f76a68614294276b7479f349542c1bb278de7f8161, 0x375e50c6bc46daa7304881ac92b766436b48563644cc237c48aa25417d080322, 0x179b116074b92965938c40d3351e8ee3ba8a97d00c99f9c0512a5e96a05b469a],
  [0x2ecab849ef4e687e6079beb9f8da0585a491a2bedf9757435077ff76532f7d2c, 0x31ef933307ece509c5195f394ebb0cff74266ce1d5cf57ccc4ea55fc6b337305, 0x3eafb6dedac3ea255100e511f1ebe09370cafb6260f52ab6630c84249a1acc2e, 0x95a83f60aa5f805ee4141aa25b6a2997818d29a9872205ae5121b0a7326e855, 0x1655d68b80703e597e9e99f25195673625e670255227906a033bf74508008c56, 0x21bc8b141e28daa0edcc65647534d53cfff31fa492225b7de379e7523fa5e85f, 0x7834930f0c9cd25d0efd4bdabe9acd8664f6bc95e745187f7d44e269142b4bf, 0x3018d7717d74cf7c2060bfc1b0c61a7eef7b0948f4a45daa8595928c1320b5e8],
  [0x386449015784a7a63799f15bbcd75890cfaa0775c46e4ddf38a595518537195d, 0x182bc551588d5168a9c3c63aa976aaa7f764ed21d75ee10053e5cf27ee118e80, 0x722820331637ab028fca9b87cbdb2686579fff578fb93673ca4e9465b480e49, 0x37fe7cac5c205a43bf7965e908b8b6014a823183c0f9277e4682605e1a1371a, 0x1432087acafc14b5ae35ca846a2302a0264825c600276efd04cdb1658185ee09, 0xfcd19fb23b48e0b8ab80b1a2aa8147e681724537dbdc4fa9e5a15fb18927370, 0x327cfe59c43dc87081e0a9cd72eb3af37ae90cda987d7f22e165efea5f5f2873, 0x3827b6d8919901b76e5d13b4cb97b6a4cbd0419e88713a3446a9f0529059f3b8],
  [0x3f3b7dc3e41d56453f76fb32485664f862307479e939523af1ec9937c3c00dd0, 0x2dcd00fe865b2d70d3cd719819bc72b2d482f9e9e2221c6d1592c64e52d25ba4, 0x3c144c2287b783d5b195da87a59bc99b0cee727b31334cd875d702056e419e47, 0x540bc3bc0e1330bd2541560c8a1c3183773fc5d76680f534b6cdb251ea9b1a0, 0x2a7df7b02e0c60eaf93e511bf42bf28a1caea9640f00a7c1580ebfc82e03683f, 0x23f5f32f903631e9c8b430b84a9cb9eaeadbac0104fa8799d47ede625162ab10, 0x3b0242d814abf97faf5b372a28db13e846110fcb6503d6599d9daa481add89eb, 0xe11b053900c1b5254b6e5b2c5512b994ff76a2fc94f3d658842daaf0deff3e9],
  [0x31ea2683e7f76dbde580f7c5cc142fa4e75b233c29b2c7b7c7eee7f139dfc0fc, 0x18d4aea38fb48a819465bbb1c79c9c9fca41d51762a1083065f837b7749196ad, 0x25b63b083a7cfa27e39e0f17fd348adcef495a0ad3440036953f32759d6c2183, 0xf8225781e7e108929673e36e234bb231c968704d9b49f2b41b776f8dca9f1c1, 0x2ed79340e93c4e519b712e83fdecb70829d5c68bbb612b6c485d0134abf10889, 0x46c26ebcdee873f68510d35599ad7d74d11c370ab6a9824679e50c6e282b111, 0x1207980bbd7c46161b746e99b401b895b9fbc6b8ad4db3717e8307ce8bdc4663, 0x11c76bc20ce45c18dc2c2439d789be848006098b62a2e6cd78ab1bdcceac65b5],
  [0x21deea1e4af1062ba93efe0352efdc19ae955b26026863533a2e46316d1347f1, 0x103df6cf9bb922cafb7934e4e17c8495652930f10763797622e0b55241b5e5bc, 0x71c0136a69e5d0338e1f3b810a738fe1984c2968ec82f9fbb2d23f21b5ea00b, 0x372048669de15b5c20cca1eabe72057038814c5cff6e9d9775089b61235f715c, 0x19f6df50e8af81ac676b726d311ef2f765e66ea8f62781b50b806661175f7295, 0x2e61c617e4b6828ae246f2037f81d5b45100757f7bdaa95e3096a43aaebc89a8, 0x3ee2cd44d0bc4d625279ac4523b928203f43b3ce21f0d85d0d5f061ab574b307, 0x22609e2f94384fe985964b8ab640c14580d7b24211a5e5715f123b96b7c66e],
  [0x1b100273eabdc39ab6b930de7a1f07657123ee48ee9886a1bcd87f091f2f4a78, 0x673776a0b9b343924a774f19b527fb53ec5171bb983e9b89063bcb368ce6c27, 0x9b80ed7aac818d0efbaafdda7e714d613345219799ddd0606ef0ec0f6d533f0, 0x9f0ae33f4058ca04505b647581ef3d300be8e9cdfccf0be8d2754ff9128c922, 0x101274287a0c9e5c0045b144e7ea87238015ca65313c2c96535f2803f468278b, 0x2a256675a63a6d5c249a7151b9c3604dfa536a7009712504e80ae22481741af4, 0x25894c4b90a82f6bbf2a313f5307ebf533adca62c32d86a5c35f3e141976548b, 0x385bb4961271281e7c7b8dd416caa6a3845d0bd1080f461c0a3a822e15fa824c],
  [0x64f0b0fdee0b7c330e41fdfd7c797fc79b5a3a591e877fc82fb4bd25e0f41f2, 0x2fedf2b61d8c8b621a0ef1a16337581c9347984c36b1e03995e2bda3abc9cf04, 0x204bff22c2fb669c14aaa6eb3b45c0246fdf55602a8eb5d6be415dfb4b954994, 0xa02f54c53c5ecdfab745d4282322539f97f41d5023d1f304cc81e7dc56e4d1d, 0xf5de38b7517a424760a3ca16b027daafd247faada4e06737cb9d44c46383836, 0x15041aa80138bdc4023f27b503975a0183adde8d5d25dfa90827544eaf4cb919, 0x363b7f765cae31fc9af5c86435bff8d98c66b46bbb995a8865391a0550977132, 0x3edb43fdb7d4aea53a4ff8c3ccd5d9ca26f4b60d96a34b0b46d549cab58047fd],
  [0x21a9e67035400889cfada8d7acc1da1e13cea889a0636bb7958a2e3f6af8b1b7, 0x344510940e047ba0919401f7c435d0f959292a381a79653be2d343c65473e254, 0xea2ab2d9294244218d2f1ef8b115e58daab3f421cfc16d6da040527a7ab0ae5, 0x1b5dbda0ef8b2cc8f59858fbe36e1754c0bd0f96662d2f8464335457a8dbad74, 0xf5a5bbd012cd0380f208abc81c948944dac40c72c39cf2aa473fa4cdbc47ef7, 0x306d855edaa1a2b684ed75cd8ad2cd2294bfcc954b1425aa7a51a416081ae720, 0xfab43d3f894ab586aa4134de96aeea0bfe9d0613b3c9b86e33fab5c787ab6c8, 0x2888daf96af24965dafe690c2f2d59b8bf4ee8850dfac8e22ca415f3f017a90d],
  [0x25c7871f4c4576938d70ac54d46a9e4e6efbca43eb19ffb1a86c32998a1286fb, 0x2a4f08e6bce4400e11773ac031827f6fa58da65134abc31e61f35ca9fb59f368, 0x1da61a9681cdb4a15be46aba296c5b194dabeb57230dc785c2cad44473feac61, 0xaf8fe0c9307387b8fe59a2e9fd470f47d355ddecc5ec7d2704e594b41165378, 0x17b83b04001cd4b2fb3005a1b509fac8c504566cb9f822c9ee53ffc0e83fda11, 0x21d0401cb9f9bc87a1b64a2a6f81e88bcf9d4672d7d40048902028d66da1df98, 0x1d18a9f7a6c2d8629bd1a3355ca25f728036b37ec70c783f8158aa45285df374, 0x17135ad7604c2871c32364f0d535abf8a60920e4dc87f1a5e30c4d9b48429d45],
  [0x2cc941896ed6f06911902e857eceabbcf711c2fb1200fd5df98cd69b1703f4f5, 0x2d02a8a5e214eff3417c9c95e6daa2d5e713df8ab7a570416fe53d67322b3d5c, 0xb09c02528ae9c78870ba2d25fad575cfd672a6284eccffdb239727a0cc83cb5, 0x25d8542cb8a31bff04d517f41b71c2d3ba48de6fd62a1370f39c1ef261e10e1b, 0x247f8a9a16b23a4c4483b21335694647fa04aa92c22a3f6424fc3b38e3de729c, 0x2c305a93ca94ab5182ebd60ea3e710c5e0c4530fd3de8ae5498169a4b6855d9c, 0x17e8edf7dda459c9c8e7c3e930c3d19f5ce21b1de1e2a0b9c8898e7098bceaff, 0x2b17db6a59f3fb8f48bffe45b8cae468d668859282548b0abc0510318455d289],
  [0x11b5693346d8e1810d79d32cce76fe9fc5f213c8a6709ef8a6eeff2feb16050f, 0x2f28881164d60ca74c096b4c4fd49fdd4084a4f944758e3f8799f3f0ef704c4c, 0x2527c4ac61a8bd25922164a45d56170f68af6d1adc34f1082d8a843cc0a96c30, 0x39b2e45c20e1d2b81e7f0f92698be196fc347a637c09a2498bbc9a76c294c8a5, 0x215f1e2a37f49950223e3bb87dbf42ec63e3dff2228b83f894b289c043b6bb62, 0x33da417e66febae8cdf8e5f7d6d2c2c8f56f2ace40ce784f0a97374ef56a2848, 0x1f1cf93bd27b7683ae8281ea80d143c271d065740207bce043ac5135b87db73c, 0x2a7740533ffb38b4668c41c26dfabbef89fe2385ea2be0983df73ca75cff536c],
  [0x346e5460a55cc6a721613f1345518c3d00bcd89273ba06bd3df9609befa81383, 0x38d859aa64724bb6e3bf0462f7c25128e28b8d920f1c9b1a9eed3d837bd09362, 0x150d113a2db6110e0562fa919eac590883d725efffdbd6222bb920b16383b4ee, 0x3077a6d3076a4123f1810f81fba569de677b7d8b21be9764e8d6b2aefeaea569, 0x7b7979b1d11deab00ebb0c2645228f24b45c8ccc82ca642d7f2085b26300d44, 0x2c7879717b34f7b21f74d4cd09d16028156265b4d04196733f25ef1896abd28d, 0x31ffef1f5530683c4b9960dd305a691cad722868bef080c9a8df938e23b2838b, 0xcc6e55135aeb7428f9a5323c15e79eeefea4d6f502706a18b097ab3945b0b8b],
  [0x10dd8e42f4ff08769dc6aabea4b34c02e1b905c6ee6557eab759945014c71ed9, 0x3df6e87f968db4288a927fd85183a0d54b40a07dceee94b3f7c09c922278d7c9, 0x3665653d4be4545618eb47937b0a3e4d85ebff94504bd80e2bbf72635cb6b24, 0x265b61d243c81e2fd81a10c330b5ae00bca64ccb55d98ab0bbe6aea3d953e2ef, 0x2fdb0173122c2005ef91f9e8b66e2f0a9f92fe5ea9f560e911fdee980b965abe, 0x270779d667331762677baf4e100ce7505b6bae02db67979ce55b76469a89acdd, 0xb668e0d97f973e7602034fef351a8beef7ada70e4e0f14d9b40200c7bbd8cbd, 0x3ed86926d4c44de9041348f72b0b31464ed3070f3f8ea201bd11107858b1ee01],
  [0xa5b598f4be87226728a56363119ad03d08d7851fe5da844d9ad0591bd615dd3, 0x3bb28545f914346a761bd2287f2b6def1f0f80c0ce58cfe8bed94b97bd0134fd, 0x2ffa4b811677398dcc6fc0549684cfb5342efe9ae2f10e1b71396cb603a90259, 0x2e8b8c370861337a04278da5bdaf4408fb4a1fe435ffb293b2fd6456597d4f9, 0x134e4bda31e5eab2abbae18a0536e089c86d062a400765b05b2b80bc343d4f7d, 0xb34599f2dfd48480fa8b673d3e02259504ec0306eeb005987790c4ca0a440d8, 0x39b4ec76f0e799ab8d21761c9aa9a22cb68c8e57dc3e2eb8c729ac32ef852058, 0x97a3258ab65faa6a45ee8c01bbf603a61be365187ee999d7fb904229dfc1c9b],
  [0x1c48c363fa57926a623e992d71c14638031d2a2ea1c6ac0b67ba904a682ea51f, 0x33ec650d0746d8a9b31378ea8e2ec76a76d9f0949d3c873e56e0c497476acaac, 0x2246752e13928f2418093f67c4d87d1c4543052d3e95b51994b5a32356c1b0c7, 0x11e9048137d213b8b6491cdf530ab74cf3de5e4cd61d614299a8ce5210dddcb, 0x29f4e6f6bd84c02357d3cea9b032071df81083bfef36312f0f50a48738849a56, 0x3cc9425a9bdcca8eb2f114824273d70de39ef37e40c0d4918988dd0f50974ede, 0x150f794f903e78faff3559462733bc1cedeb68fd6789ee766bc6e2fbfd015e2e, 0x78290ecb5075558027c85c01788f723de31640a4ffea52b946aadd15808a4a8],
  [0x2ddc8cde4fb108065cdb56d9407de399cca3215803334852478fa927c21fa538, 0x306c6631de789673639e471483bbed9cbfaf98faeb7d54eca86dec59561eba7a, 0x34c8c1054f360ba528de37d459434e6c2a0b3167e6b8b497cc326133b11652a5, 0x746fa7394aca174ce81932bba06bbbd21a3b8cf10af9ca5db5bd2bf8faf7f0f, 0x194a7888b1c7152c86466f31ba19c541cd09bf556edbcceb75ca5506af0eafac, 0x2cdf41c0eeca53d13239770c5b7d099d5e08a218dd5caf958bcb3ea333b99624, 0x16c9e6b41975e39e2ad3525c880364a27fee33065db4e7eabd6161b1330d8b53, 0xd03bb75c3723aaeb632e6b797f5260ff0198990f38348890e3e067c536939c8],
  [0x13156fc2f811b4818af9a808bb760c43d51244868b67d6d9c77ddd232180dea4, 0x1a83632d464a407aa02991bb08845eda122e7fb53f2b7e8c67f8369a4c321598, 0x19bf2ef60f7c741198d0f6b54b2cc6e7bdc285a9f68722787f088686cc24f4dd, 0x163a82ba1fdf9e79101fb903c605707e5eda9dca16b0e53d0079bdd48785f1b8, 0x375aeb842ebcd1d48908f77d57f21b446cf4276a9c3c1ec615e4169f3f0ff492, 0x11e4dbdd16cd05bed34057fb20d872ab6c751698dc6b935b671eec22f8f4e808, 0x251778aed4136f473affaa2de473b0e6722b5f352a7521fc0eeebebd69e0dd6b, 0x3c0f363051d38c49b508a990e12b817034cd7abf0519a61b234ef6fdf30451a3],
  [0x1a1da3d65bd5f5366c70194840a02bf76d2485e9b8f8237f804e2d738fc02e87, 0x51b43aa6f7f68d0051acaeb508516910b55292d61aa92723424c5176b5f0cf5, 0x2aacebf50641080781d7a23ab02018f41de1b8223385693722768c1c4d5fa2f8, 0x23bca4f8c73d9649e4bf4e147bdd2b188c6a787e1014f68fd94686d2aa110419, 0x2b9b44a4b0beaaba7ad732f18e2b63c0981d0c2432fc1179940dfdeee9d48b13, 0x3205234fd20d86c4cd2465f291f279310f67c743bfb2ef8ed68c96ad6119089b, 0xc9e94b713ceee9ed381f79e7a5bf315bfe229aef39a33c2cc78f345581847cf, 0xd296b750433f06ce9c7024068998e03b9193823b4c7b7fbf2d21481d33ab6df],
  [0x20d5e7ea001ec6fee08fc92d7986ac4516d558a0e9e6e7fedad007b359388ee8, 0x16c2e04fc4c793d7d5531f49ded4be1f411b23fcb32aeee39490332a9a48a3fb, 0x51407e20fdfc052b6f7e0921f985b77e9ddcad1febfa6a5dd4860a1d43d78c0, 0x1ac263ec3b5eb2432a7e70f63e388d284a41b39a6872f59ff9b20c38ae5e56c6, 0x2738fb1ba80252fdff7bde182b8b4b19ab51abd32c2539f427be1f29cd5e212c, 0x274b36ad8c3b76d78cc7835ece3b872f4f79a6e67259e9fce669f633fad07a22, 0x194694127edeea1ed0c207af4bdd4a42e6b8134ac15690fcf8cb50102fa11d82, 0x3051e02812981821045ced7198dac0e1e43efbbd07aba80031ee1f0a4093077b],
  [0x821bdcb8ed54d0e4b5b2d8e0de9ceb5670d36a9e831bc96fceef76df791d47e, 0x313727c21e24a29453568cc960928a12793282809fe2516d11bd5e239d475059, 0x3a5bb5b80b9b01a8ad7c8ab52fc020123298fa5a795f41a8840ddffd109b69f7, 0x310c9b2a75f9e9317ff279d465e0fa6ef46ec64ff709d40999beeab068a1c8d3, 0x38e7e493c2039c3b849f63a37adfd5648b638bc41994dc609a590616fd398c68, 0xdfe7a4766f6e653335eebff160372146a3ff903e01e3fd96427eec8a2f6cd44, 0x386524837afd7f0531d465ec03b7e633b2f43083905e91f637a62b0bc26fee13, 0x25838edd18888ebc2cdf12cb60f43149504cf7629927bdb3d5df4ada0af68ca3],
  [0x3555afa8b7528b3bc706b1eb8629ab901d16dea19c4a57f7f9941a1b4c5ae2eb, 0xaa4ca4ce740c0ec1ed1508f03d6a65ee0434313673b01e3634a4866b43fc5f4, 0x23b73fc5ce129703e2a82b7af6d23265edcdfd552e45e586671e3d48645a3c24, 0x319f617e6135467070e57bf08bc0755aca7a08f5e5a6a036c182865621a487fe, 0x394c8bea3d7a4741cde07acddab770172712d57b07ef52e70f107db922c1aff8, 0x2d539a1f8d55ef2e6338734833d4923007c3f2364a2c7466e9bca299d8999360, 0x9eb51c21505b77bc3134dc816c4b8f573b940f71de40884ad58d1b8c0edc65b, 0x368768bccd298caaf8274e7ccc34512a0cc74af80534747a88d5837c21a07dd2],
  [0x2a30b12fb8b3000a6ca570652af04e6c052215cb9b86a8d33230f3f157054606, 0x1c56226413a7624bb5c4ed16d9b90e68cd92eddb2f250dc1f64255d96b996458, 0x70f343c6110aebb6cea67c160e00575af1805ead5cdee1ecf2f3eb7df737684, 0xc60a8e3d97fb6bd529fc391a75dd0953697a2fe832e4ec2b4cc3c531df5a7db, 0x14d5a8dcad0732639ca40d7e871629001cbb275aae92b1b8e96982362c2bf0cb, 0xcb272757e5e1fa6127c43e6df59e092efeb23aac3f77179cd760d9090b77741, 0x16fea61cef0032fc02b04ffd2b010ed42fd972eb9746379304caac5955d2d3a2, 0x155ffc11d87cd47222e9ceeb49f4970331cf6e81a86031cc848f0ab3158b3cde],
  [0x2d92ad4d4ea03f03dbad62b1bc611f7673843718fee728e9869d4be417b7d29f, 0x93a865a486474c08c5a255a8f8e8bdf4fd96ee1bf285027b757e6e566d31678, 0x2a53a1de2a492ab26e88f125bb899d9842288f2d64346b22aad97761b50008d7, 0x26b6283c222bf88700f091bd62c14015784a6e76371237eda32aa17b8e9eb82e, 0x1270b575f3631999523f6f0fae68582b869ee070f08d229a30f908cd39706399, 0x37697e34e4259e92e2ab542eedac5ee5a5919fc76cb17a838bf27f0e15fbbef, 0x2b397e1ba314a4cb50241496888cbd6d7df917139f3076817241a1942e8dec9b, 0x31e64de6513ab86ff2e297ebdac7d6b8ec1fd5ef64724d714504d2df99451474],
  [0x3748d975b118118719925e1df5f85c3cca5e13683e76b98f829d53d564849809, 0x275454f15aac3ed65148f01e99798edd77007c577d3997a71be6b80d1a47a157, 0x859555a10918ccbb3576c6b5fac2c4361c64b73696eda3440b39916566b5723, 0xcbc923dfd3549c024855a96d4f2a97189e9a0e6379fef696e8f770069d29cc5, 0x636edea08b80a942fa681706322a71f192fded75d6808839d9db1a56cfac1ae, 0x3abdbb8f7d6b5f08f34fd53d2326cf91a43b3b99d8779969148327c5391884a, 0x32b61a4ce323ca04e85fe3599045ed34e979e4dc9fdb6b8cfdb4b488fa0e59cb, 0x3b79bdd9b6dcc9fe6687b4eb86a90c7c25e3cd05c1c2b937b3552c23d2d6f6d6],
  [0x2d4af5ca10eacb9aecb91baafb4d3beb0564613bacc961a8e41f25ec493eec0, 0x1fc349612ae8b2949719f10e18c822655fea0fc27f9894e68fab30dcfb6fc463, 0x35444bbda0cea09711a2bd499fc8cd93cb1a6ca0ef403f07f14804bc340a2969, 0x15726694425b0a0e617856fe2299d85c44d0193fec1e54455e809780895378fa, 0x33cf1c1b41fd5408f054ad4b7bff5b14089ddb9b09e947d48bb9151354af3256, 0x27c6eaabf0afa7fd23dd56fe0881eda302375e7933dfc99096fed73992768e4b, 0x1085992108c21d18f73d0b3b333add44b490505c6a5307ce2c53335913186037, 0x11d7fbb075e3e88c2432292e1b2b3447d43514e94346b3bc15201a44863f9739],
  [0x3738e55e5cf5815e5fa9006c4c49441cf88d26bd798db2ffddc8c42a5abb460e, 0x17efaab589f8cfc59e72bc158d2d4578ec655df72c347474cc8025e2c3c41e51, 0x1a27dd15b131c21a2e4232d1c265a69c9fd01bcc6bdca9d9cdfc7cab6c3f9ee6, 0x217d32fdf16274205b18656f8c42737b74fe7dfe01e9038e200af709c254ded3, 0x10129ac8925be92f1d7f2b6950a2e4e01915f869bc70ca021b04744f7915f892, 0x8c2fe97f0eb40f3dc55e715d2e019d2c4b37a65e648fc1ed6e8e402df853219, 0x2f11c71feba3495785084ab2058e221bbd1e307ec213e0e0ff66efe39a9ba7e7, 0x28cef7675910dd5859c0da8533961380f52de8f49b952b85ee3cf9ba879a1bac],
  [0x1cc86b88a4cebb11d63268645cf9b784933b878795e09204f53d8ba6b4805cc3, 0x34368c12a5e6695b29ec661748077a66ea7c2a5d41e2d6a5c48adf953cb7e3fa, 0x36c70feea58a83d65422215305be7fbc78fbe371fbf224750a006608af1281ea, 0x1ef42dfdb87668e871fbbae00354b77c9b5808d72db90f40969e374f33a9fbc0, 0x3e41d254846fdf6683248d86ab7ebddc5f16eb65b10db1c63ecb4176a9663974, 0xa0c92d1bc486c6a980df7751c675c08d39b9f1c5e8043e882e835a622c5b902, 0x18577d72f323a111701dee4bf8b4c458d6fa973ddd1f92a53f0fdf1c7e529adb, 0xf0fc0bd1b89c54cc16c26566bc8a8f20c09b75a9244890afef7a9c093944258],
  [0x154866f4b2ab973a5ba4c35d72a79cb7efb0f82be73f4e0229806881cfc2a739, 0xa03e02c34eb74bc2563adfffaf695ca61b2f06db8f7a0d5e43763825999e540, 0x20d50a37e8d4842db78b6a5712c328c605637e880e0c34cca54a083258166a41, 0x152cdec2ca2fa19f856f2d2eef676972ea69868db0463075f26539fb6078ac87, 0x12fb5f13b933dbc2e39a33030aee9cfd60b704c206438d51a5a1ab0adf5db54, 0x279dcce05b1866c0a701ebf769d503149b576785004d2931ba8644b07fa8c70f, 0x95c293793c32fa1ae6481d81070ab371ec2f6b4c5e855091f75593cb20c4521, 0x3093308cf14280e66611c114b0d5d944b126e20fcc7e7e536e2366a2406d59e6],
  [0x3576c6a0cf3f6e4ddab7159d58ad2501c38b45909ab5a0906e7ef1d04f0f90, 0x10097cb9e1b895ccb71b3da45fbcc1093f4855e805b56455a5ad6a3d73876efd, 0x320f702acc8f52a64e5361fa9e8bd83f0cc5c47ec7be23860b677957efd1a07a, 0x2cf1cb6c75be5f07b8b43f6c46fb97eb0956f46028ed2aec8106a08b78d39b35, 0x1afb59879ab3bd2100d877cb7733208ab0c4325cd939a7fbb0f01a8fc2490ad, 0x69e7b345d5e81346b2e3b023bad143cc73623cd096e7b2042c02ea99c520409, 0x2f6a02abb5546fd264a1ddf6ec3540eb31b61b9b56a2a5b625b567f0b9cf421b, 0x1b22dc745875568747ed92d5dcbe1fc8925ac740ffbde57a803a7144198d73f3],
  [0x77d33c0091c0c049feaaca1dc39ec70f6fa4acfd0af8293cb4120192507b168, 0x34d3bfa617eb3d3ad49ab3de12a9e19ddc822a7d440a8e91abb77c141fe387dd, 0x283cfd805d96c36a123c3d77b2433a8ef9fad78ed77309a60322ea9f3fc3c474, 0xee10a9e6e3287649efa7b2b3eea0fc1986fbced93847eb10c8075a285c274b4, 0x25678ffcbf2023d57cf9bbc5d07f5f9327c7c8f34f68f5056416741dedc08916, 0x10a0d8093c055884373103458d85aef51aaa2ec42e68f8861bd0a2a9246b4176, 0x3fc4f583f6b832405d755c3b7014c3646444c9f0a0d003e1a8eaf78dc9e752f6, 0x22b34173b400a6d4837c8fbdd6b029b7d39a1a068826002457e07a3d04f25124],
  [0x2e3f313a90eb5d334bbf6f75cbf060887372ee3cd3949394f817dbc50ad3c87, 0x361085583e870e283033f48b01c63ede94333e970af5e6c42a398e05283e093c, 0xf56ddf848549635d9690a7b59e807805efc0920538f6b9338d61cc546a98b34, 0xf3ad06a6d7ec6f6a554397f9ea3c2a85b29d707e9e2d95676ed8a32df6b8f7a, 0x1554fbe27c7c005c5e73a73d0d3f77fe9820199dbdc8a89adb534115997ce44a, 0x2a4314203335a3fc4236c2ef2d4ead0ffb2fe4960a7e5ac7bd75a82e62b26c6c, 0x105afb9fa0b2bab9271d2acdff5a4334be16e49e7b822e38fad7e2beda491152, 0x1834974409aec59b86aefb08dd97534a36511048c7d6f0296c4c804fd5da1f9c],
  [0x173dc84672fa04bab8d625c038d739b4cc68c0e932ca7f03a44fae2b1b8a0201, 0x245de7df8522ae1750204641bab70f1ad28bb6d4dee16b3a48ae7836b5dac8ea, 0x11b30373f353ac12910206e5d16a4ccd8efbbd688ac0cab2f6314eb423a9a5c8, 0x2d3380fcde8b5c401dcf6df4b962856ef46819eace58cf1e3a2429cd911d507e, 0x1f8eff766ff9a409fe20b7c8371d5db329ffbb353568c0ca1850dd0c07942729, 0x31a8342fe6617643f1162890b7ff4385c1e8a664bfa3f91cd191415bc9ca28cf, 0x3f90f86cc18deb263ad8e94ad739c93ddcd835977a50b536b2a3a53ffa0f1173, 0x1f3429129e28f7a0998e6c3c3cf53846e245231fa6368db42b038916cf82ea9d],
  [0xb6d0e7d8e91f7b3710ee9fd9f85dc43073fad8bec301b60abcc77ccd8a2bf1a, 0x3f9f17c54ac5378ddef05aee6bc9901f65c9444ea37fbfb94014fc54eb233d92, 0x29df9a07ef9be41236c3af804754e41bcc1c87025805cdf328c5de7655299fc2, 0x3f0a266ffe8857864563413fffce38458e977dbfefa2b3a066cb9f59c7fea109, 0x306b6468533118c5c3e1015612414367cdbd055dcedfe3dce6eee27e61442cd, 0x9dacaa52471622e9830f486e9a006a731f7935bb4f9d7db7c89aabd820701ca, 0x18de205346d23dc7ec15db7227e3fa067cd0a5b2ff07575adefc40bf0d8a1c3, 0x331a55cb2f7f31811fa9228378d4354e060e52c546bb37c4a7bdc700937c1cc],
  [0x1e1dbdc6afa96e8ab5e705b85de078d11a3fe4e7462d7547068adafcc35f6ab4, 0x3ebbd8d5ca8eb7008f2c48c4204a9bcb9785924568acae88bd1b54a20af9178c, 0x18742babc4fae2c282181f5e8b28b16d88483ac22847c7b24dff1c26dfa4075e, 0x7abc262519dbcedb5b7ea069f83df0aabbe5ae39a22cb7db172103d63d2dfce, 0x2f71d54410eae6756ce1ffb85ea3e0e28bce2ffefb0d574d67e8d3a464ae3e0f, 0x316cbe0781ba9585a48cb0058e8e467f89bac4e4bb32b93e02187f24b4ae5052, 0x334268f1c7808137f01a92010dd7204a2057e6ed4d7818178e58c0e912286d9d, 0x275d8f24a70a61624ea8473675323f2d3ddac7d616c3a8af65deee093c2412e1],
  [0x2716c73ea5a5d2aa12b4414434ca088856b7da1976e711e949b12dfd6712f2a2, 0x3cc179b028fa6f291cf85fe358dc117c6ed0c004f092584fec947633c496c00d, 0x7b3385ae2031659b33e2edf9ba132619b4300e7cb4927d5dc7e0364df4deffa, 0x36f04ff38c48f89200c09b1799e3d6aa72c3a575973660858f8538e07ca8995, 0x32970cd9c78ab01591992a5e5640289483944b67b645f1181e5635a439d6b739, 0x3957b599f8cb2bd99c7e1eb74984bdb8646ce60e525450006b3690f329aebea7, 0x4becb5d0611ea4ba3c20b4ee6c989fcb68de55cefdfd8f717dffe866cf7f92, 0x1b3430fbed886b02e84feb1f0f0165dc2586e0000cbb1d4a3d9bb0357b82a2b0],
  [0x99de2bc8eb9c34365cbf02da5dab12fb19be97b5e433939bcfc6e43f31e64ad, 0x6b5ea060ff0e72f96dfceae8da9eae317d86f95831dfc5016274549c3f3b33e, 0x1a91d8506b25613f05e4b2df7722417e2e92bd5f775c62827f662fa661db5d43, 0x151c91b019e5c03bd1020caab8cf5fc6a43059adff22120dbc09a87b7451cb19, 0x214ad68db32997ba8c5eac168890b11ba16d6903cabd0ec08336e4bb63a42136, 0x29a2d12df46d8e87272d9a62252591aee320f429711dfd7ea364bb037367e935, 0x3d02eecbd12c1f46f6f53fc6c88e7525f857712cd82496c08256abaaba5120b1, 0x3ed88e3afa7c0c255e25d82e4ae095bb00e3d846e3217dfca22d64a9da3ede2e],
  [0x102d0147256181588302a97950929907531d17dc86947abaff5c97ec06bd41fa, 0x95e8c384b8b4642cb3e4ac29fd8b7466148f33c4e83fa74066d6e8a0a5b952c, 0x3b20196a1842b7d019265215368ea7ef3d187fd4fdc40b095e8a28f99f428d78, 0x29dd70964241d42757fce24bf293c59a2be02795354f4b96eb26aebad4b903b2, 0x32ba59ce19438b5b082248fd560013370416c2d8fd38cefb27952260aa5231d1, 0x1b220ff76e3f3b4fb95d5132cb86fa236ec29a3bd69c8eea123149b892a9d844, 0x21ec8e21104131a219fb145bac14232729fdbed0174c34a2e1a79a00cd0d19b6, 0xd22c0670d9072210cf80a1729173300b1c86128d6e56f9397bc5042e1deecf9],
  [0x37695ab1e75982415ef305fadbf4bf40730ace246132858637877427980f3602, 0x328bff33474ba317b3c52f580e9e409ac8036b7e70b191da69f34bb15bfa17ab, 0x2003509c7b8c9fbcf6640a23569476d5b2bf2cc74db498130fe6eeba1b9e5c66, 0xacc1fa58c105da33f3bcd88a466867b3ec1a711e4d3fea9622b942951a939fc, 0x3c2d31640f9db8503b5f757e77b09ab770e3f3ae5cad770dcadecc6d7b8e6c0c, 0x3bc00ab1fe224bb532397bdf75b949e050c08e0933ccb772b42fb070b556568, 0x311f439a28211308be92880f9912b9a2bd97164fc98f6053ce4ef5dcbdc03991, 0xb572257c376fd67e63673c0f12e17326a5518cc48c42659991ca0f139a8bacc],
  [0x45587513fd1ec55b25119391a022fda6d9b9de007ef66e3251a309ca6c67813, 0x7764034df1175565bf7d7569934537eba58f255bde51a0b09505bd2713358f5, 0x9d939c0650fd299bc7b368dc19dc9a65723aff8353d7e86e2afa73cbf3ba4e, 0x25d71c2a74f315c19395439ac29486a4922091548f887df620d41c51748c939e, 0x1828d7ab85049db41fdae3f79c92f5535be67aec9066fc260a9a81fa828311aa, 0x29c89592c4ad3c586c2d7dd339c974ee2dbc8227324dcdd8ebb6a3b4dd60a126, 0x2f6ab1f28a7806d0e7c83bc5ffdcfbf956939f7057ad4e843bdf4505eda72326, 0x31771b0a0b25f947a137dc3d1a58103305527ff746a22d0de3b3986fa860345a],
  [0x2f79fa7be155f3c9fc1c52c142ad6acfba135e60a9eed3b75b18a9b390e2142, 0x3485e144c04cfd6a0d2413b44741daf9c9b59117de2f4186619e76595495ac21, 0x1b4b871aacba76f415848a64630948cf46b970d2865377e2e1ede88579d67fc1, 0x2fa0964186c7945879d17f68e9b0910094971c90345b91e15c13a0d251078667, 0x77c111c1b2aeebbd16d28ac170d4b65a2f2a6190bcde9fa3d27e0a17e444683, 0x74ddb374a807e174d8bb8cea73ab86ebd454bec155461146b7bbdedef1988db, 0x70d04b74abbe4829129eea0542496eeeb1baaa95a68e96f93f39fc579c0eaf, 0x1ce438b50dd5299945dd175bdb91b7b0547ad0fda00aec1781a9ed978fd5e42b]]

/-- Those of the last window of 22. -/
def lastLagrange : List (List Nat) := [
  [0x29550e1a502d19acf13294ebff59607f00f5123a0e82847e379f3bb9cd32040c, 0x1d7538a4ff02e2ee6fb2da636546923d1f926ee6b201e4893b0dcfb5d085bfad, 0xda2659934ecab3b9b228e4a6a92c34e7030ec4cd0439fb9f3d2dbe9f0b8941f, 0x1bbe453c48ed7fd4b4ca0d2d5e83b6d0109dece81ab1f40da41ec062b27d33fc, 0x1d8955583b964d5d227835e0a8dca041646d677f3e528851a14002a862f5700a, 0xb6f9b00df6e67be57c439179b386653439b4d75c4fa14e958df54033cb95fc4, 0x10c19c1b58903b60eaf5532c77eb2fb18a6d98655db452adb9dd7c00f2c5c523, 0x39e37ff24d1efae5b527b9c6ceda9ac1de7661331c8084f14ff2e62fa26cd0f5]]

/-- 5 times (-1, 2): the windows. -/
def five0 : List (List Nat) := [
  [0x19a43814b1ab00cc22bc3202b1f8d8e33e745c8555eca6550a5410ab029d8b99, 0x2388f4cb15cf2511748541c3682be0ad7b6e8bb08ed85c4eb4951434c31022ad, 0, 0, 5, 0x363250ca6cd47a20586053bdf8f66ec4c16e701be95191fc9d86185bf19199bb, 0, 0, 0, 0],
  [0x2b63203d6bb657e0ede720751857d3c1f06b175577cb291ed5257c883aba0521, 0x355deeeca4dbc28cbadc25cd79c8c2c971006b88172028529ec717347049162, 0x19a43814b1ab00cc22bc3202b1f8d8e33e745c8555eca6550a5410ab029d8b99, 0x2388f4cb15cf2511748541c3682be0ad7b6e8bb08ed85c4eb4951434c31022ad, 0, 0x175d2062cb45d341866f01c4e7c19842a99f8647a297b446e03b13a4ae23d8ee, 0, 0, 0, 0],
  [0xdec67c5865cc934c6c5f772ce6499723d8b8b7729276803c9db0f675b85d2a3, 0x2c298ff148170c34f2dccd047400e54b3b2eb1e7d1c5472388f59094785f10bc, 0x2f9d6f9651ab79e8e0c69d4148e02ba08521b1a668deb61cb26d467c9a80ed0e, 0x1af5e6598072e3b4aac661437f0e7d2a4e5caa842d0e900e0eebcbbf3646a4e2, 0, 0x29ca854f9a738e032547c525a45c018fdcf0702cb1496a4ed7447120bb2f386e, 0, 0, 0, 0],
  [0x1522d5a4b71211939dfe3b7066d27c8aa09415d0c215c8e5446bd74b84ee40d8, 0x23e876003359803dc60f872641c1bcc4798261c3a4eb2e695ef4c0c4fb24f54c, 0x4e5caa3dcd00f9e0116cb08c42a3cb79217cbcdd2d2fbbe1db55604dcce5bd6, 0x63d41bba3f72bef7178cfc61e8aba702f9ef2a327db01541f7d1eef419b09d7, 0, 0x2a55af61a1b20673d39a874370ed95a456a8e768b5300ad6f381be28adc1262d, 0, 0, 0, 0],
  [0x2138dec9d478796ed51797e095f7333bc0e13e4b347b9f9e8008f2698945e3ce, 0x15036e0026cb3247cac264892dcdccecf5f8ed588534dc80431c219a048e0b60, 0xf062e03d42afd6abc380be8327a4ee403eaec3bf004f893eb54db9710cf4cce, 0x3e183051b6001fc8bb6666d27a58adcbeda21348ff80ba620748992e840fc369, 0, 0xf2246a0460747e778224e33cd3483c13a5fe46d33b9cc0f453ec0b3b2090d83, 0, 0, 0, 0],
  [0x1f7867fbf8ba29771268a7ee1915a2fcafe5fda4b5f7c321d88066c30ab72815, 0x30f57754008e27fe58d42fa2d3a4c1561046b07645ff5a1cf4a292c9984d166b, 0x261b8caa77164a35d1551f91c55196454ae4fa0b5d6c10233a4f0622295539d2, 0x1943d48e6438552558846a828bdf77bf5e78dfcca3ee3404c73f757bf4d58b87, 0, 0x38761856281aed82f1e06e93597369f22ab82c9148dd33e8664eebaa8a98655f, 0, 0, 0, 0],
  [0x29fae509ddaa173033eab1e9bc38fd8980ede4f5e1a56e5d96c940e6ae3a2cff, 0xecca5fbcbf7fcce23a0937c06912d4a03e8bdbc13d22e957fc56e45619765b7, 0x100403f746249e1448a3745bb4d1fd18e8aff1a59649e85a8b3720c1710a844, 0x2b3c3f974508e9b9d734fbaaff9dc13ece86253a34f64f4f3a220b6103db349c, 0, 0x36496968453be26f8302a7360921943f8e51fed926f4f0d5cf7083480cbcd6e0, 0, 0, 0, 0],
  [0x16dc2168a0d326fd416a3043ff4756d9ee6bd72e2c5e3f50e478803134fb5cf, 0x34bc35c9ea1e4aa198e3bd4ed63c0f790f71ab84be1a4756690a78c155477589, 0x6036b02f037272ed0957c7971d98ea78ec099b3339f5cd04c3e3bed6d435111, 0x2abe13476c6bdb8df65801b9728f3720e3087c4e7193a6f1e2b0798eea33edbd, 0, 0x29463dfdaa96b47998c8a1367f422841aa5b764cadd7b25a4b781e683c6b12b9, 0, 0, 0, 0],
  [0xadece9b94a0141da7378b261047c0ca24b1c1ef05e2055d9ace940d47867319, 0x2d599dd661fbe1d728439b139c0d83b74e9f3e6986e68f7480545d4ec4d24c97, 0x1c607e50d09a0a3a51d96a6f8aaa7bf04f17021b8a116c72014d2fcc979aabdd, 0x6460baecdd9fa08935ea07322cc9d41da0d70d4117e3998219e455c083d17dc, 0, 0x1fed61a4056e090f282ef39423047ad7d23435de7084289748add4f2654882f3, 0, 0, 0, 0],
  [0x7924f429e6518fa218e3b2f7e145a1a4249c683df9a383b64f103dadc3934f6, 0x365ce95b3472ef4180a0fad6c13c938386a4c75726e2a90f7ca7de2df7024b15, 0x2298f3cc64beb8e744dd6b5cf84bc1ec086a0e0f44de50615e5ae6f03ba2f790, 0x218184ca2074f83935230c0f66ad27f667c61747eadab3e470b851f01d238708, 0, 0xa7fe045dc6febb49b93e0a5c262a1e4af20f5d051f54846e3daddd0c98d375f, 0, 0, 0, 0],
  [0x24eb81f7a3878002004c0823d822924e17085a3779e20797e9a42d9530343cd8, 0x50f5a5422c181bb5cd873e4df4271ccc8799721c7103728f9ac27d89760a231, 0x3c23b956b42e1b0c86934afb876f75058e9b2e44cb12630f3955ec24259375e0, 0x23915d3f27b52e3ea740b1d30635757acb4039251fabdcf147f2bb7f9f7a54b8, 0, 0x2b1e9197b51c9d81cbf851c9fb5711217dd27b350d0b7e6aa272eec2c0f6b47e, 0, 0, 0, 0],
  [0x39056dc14eb71fb4565c2400133ccd33ea4b0a296ab539f1dff3669d750b7217, 0x1e8aedf00646a9a8f8ea16ef04b1464799348bcb71a0379a64b55326da1e6f4c, 0x161afc6061d9ab5eddb902a9c12d8e79a6d2ea1d9b1228dbf34a063d88d32810, 0x1240aac30da4404fcb6fd778c5d622ee0493e4718c079a98815f0007b32edd0f, 0, 0x28608c93a923482d11d9d09c6b23c3f381bc71f051bb18406f1ffcfc467b7dd1, 0, 0, 0, 0],
  [0x3f93c36515527fb128fd02db96b42fbdb6aa4233f1615aa0386ee16170928277, 0x647120e85de3d817447faa657a1263ecd3a669a9d7c110d262c548b71f22b13, 0x22b4195632dab38c7eb6fa21e723b3016b218973c2845a72fc5db724976f579e, 0xeb8fbed6c2090d79f5f81a72b2a74a98cee7eac4bcd4ecd17f7442106757d5f, 0, 0x3f5ac3cab413a65f84ef9dfc8431cf1114eec653ac6904d428072902fee9994c, 0, 0, 0, 0],
  [0x3959635fe2393dc1b12ec306b1aca45a80574b74b7e46f39b893e430eba317a, 0x372086a11251e56cbcd26d134fcc6540a771112084459055d6cfde47b6b54e17, 0x208908fcfd006333aaef0e52b839e4f6a955ffa803fb6881199fe4774bccc0d, 0x3b0bb1cd9d5d8a0c799750a650138165edf30d88ff2e956b116bc1165ea755f5, 0, 0x336a23dad134aaf3431cc153d64e83e495e0d4291c2f17cfdeb2bd1fb90ce8f2, 0, 0, 0, 0],
  [0x28c82b5d9111e0ad77369dcadb243ae7b9d27348ccf3c681b1de635b46944452, 0x18369f0f53baca3c56eabb9684cb46b09d136858e269d91f25554d6ad14252c2, 0x2a150bd2d7e6eb7e62a921e5b6da7d3c7048701998f235e645a6e8f0b36518a9, 0x2367b217d4b5e8a0bb5964820ecd011dd97e876e38bec3313d8e6b9010b37804, 0, 0x32c59c8723139415dcf32211c6e8c6f0ba7851ee107095cc29953b9c4827313c, 0, 0, 0, 0],
  [0xf8f507d03a3c83dee6b35d3274e32315f6a1101f01b5530e885974cc1994bfa, 0x2cd572e546d48b096d07c189665c94e83c7162e986750be2a6170b75ea6c9400, 0x14f48fa75b824e8c08db89cd823879141101b695dfc06acac0c2f9d03ce15ae5, 0x114fa6430613373b54ded5ae28daf7b1ff53e034225812b5acefabcb93b06abd, 0, 0x12f6c18a93089cd3106eae6b73cfeb07c60f512a1c21fb281ee4a393dd137991, 0, 0, 0, 0],
  [0x35fb5064c1dbf0fa3c81ac263e078d0e75793c2f0e460c79a784b0109fdc161e, 0x1b97e3f8b26afd0cfdd42df624dd0c8fa26641ba094a19e116efd1660cf439fc, 0x280097139ce5d2b23725019595cfd1b9115b1b1d734caa742f5b9ed43a17681c, 0x224010579c922a6b5601dae136ae964c593002e8b4258a3339fceadcda2d25f3, 0, 0x899da8f2b32fd08986a4d3002a16e7ff3bea4fd342df277ea95ef4bc1b6fe99, 0, 0, 0, 0],
  [0x1d46588618dd0f1332bc6a096ef6647386de899a13088ba28fe738e3bfdf1e0, 0x3149bc6b844df39f0ec954b798508405e2a402009b8aa454eec19ab3e8a344a7, 0x15e8e8db88fe17800a5cdc574ad8a0727dda3c8b929cfdf9197abdd6599fe6e5, 0xebb955ffc37e98ef9affc7d62adcb3fe7767d535aa47cd25cac53d79a0a4194, 0, 0x1f9f2c9906f41e0927edb6c07c91e958a5466d04204e637039ac88780187c3bd, 0, 0, 0, 0],
  [0x21335f7d664d3fdbd9c75312e1cc4f6d1d4a1fa1408a28dfa3a4dab46f8049d5, 0xa832d47034111eef9339c524d2a36abce7863238d1b0e439cdeb50e9c0cf14f, 0x10a52326a1d6afd4edc75c8f443a5319d709b0f16cb629521011964529da63bf, 0x1a9b05fcb29ab96614d115f2888c7bfd708cc43373e891c35d698c7a3459282e, 0, 0x277a5e4aa04c5c2f47df1be3a7853470ee225f4b6aa0a22941df96fb172b0a19, 0, 0, 0, 0],
  [0x3bd3d42450e89e52078b029c8d1d6869ada42e72451091dad3f403103098377a, 0x1adf1d0241bb0640bc5fee5bf48c43530c4b587d052978629e5b4e5889f9cb4b, 0x3aeffbd687f2535e27abcb14b56bbe0666554536f10110a36021ad708145cec6, 0x34c106e175038137013a9179f2a06043e24f86f92d9859c5713f40f76e7d405c, 0, 0x3bdfcbe0e995898650d7fe1091fde181c376e3a1744cbcacf866efdfe216e9eb, 0, 0, 0, 0],
  [0x37c04b0e8b2fb5fe57240e3a1d1d7f804607f3ae1297830268a2fe3b5253c298, 0xc3653926df82b90228234aeb3d11d0f6a1c618fc5171884af66c1ecd7217bfd, 0xab7d289f5b66f81e05d100795dc4314c8e307bb312fb5022f02f968b356a832, 0x35739dc01e2996022450133c6a7e32ec335e9bf11b742ee32738b9f0c33f5124, 0, 0x20e43ad780254f55cb5c85c6d9bd3246c79bb2ffe60c5da5149471dd34c439c2, 0, 0, 0, 0],
  [0x12eb20c0f1e3b41075d11e1377733bdaf59aec6f02287f6f6c3a1792f5893616, 0x123bf128c699d4b0b5cc14bc52f550d34093e9292c68a7d8e16db1f2c344a88, 0xa7edbd72731271a594b345dea03713bb96f69c810b24303537eb069127db7c0, 0x259e37f867a96899fdf799208ea4b3a1758e8a5f1edc730b7fbbdc3e70e33659, 0, 0x1f74cf1134498e469238df1707948656d9cffa48948b4f14bd6bdf1eef373cbb, 0, 0, 0, 0],
  [0x1c621dd39f4ef56e83d007dbbeab64589cc61bf7befdbea26a8fcf621dfb0209, 0x3b386fcd639f613a25cf21e004776804b8eb4e60c75c2882eaefc7da3e007fbb, 0x10bc52fca2c9a34e0e117be56869e4fd73a4dcc1afb24e460f23e01e8a297144, 0x42c591fab16b381446888b9914bbe94c10eacda6157903150919cb86da36820, 0, 0x327594d09e3c9f3beecf2704b7017122a5e9b000e988250f4d0185d71e76987c, 0, 0, 0, 0],
  [0x34fd371d45e30d694e9aceb9895b4f954422a96fe87388e6870c89e882f2043f, 0xdc5da2e937787bfe843e4d0ded70d367fed5345bfcf8feab68a2cdf8d5d1bf2, 0xeada4e9aec2c25b269fd21d7239a76dd437a6dd0c333d6d9fc47e92c8117d4f, 0xd3dff3d5316f54920ad8792a6a4bbfd7005e8a9e5188dd78ce9efd990fe053c, 0, 0x32f90ede09e21322ffe53d6e7ef28c81c6461d48f5356ac12e0d9983582c331b, 0, 0, 0, 0],
  [0x178d4fae174ad48898b0d06e098e5cb68a4e935c651471f7c0ff7205953046cf, 0x20f9fb62e3c1bd199d69f93ef87b6686dc6272cccaf229ea83568e5bd1b196e0, 0x24ccd9bf3ae4e730a87ef9695f121ac18844af8be713292294c9d548cde4a511, 0x11ac55be525bc2497c518475745eec4926ff276b4d15d6d9ea8a30ff4c78a5ae, 0, 0x29dd24ddbfaba1c65bd6dd06ce01b7ef0646e4b50fdf9694f3a938cff28daa38, 0, 0, 0, 0],
  [0x3e29e02db7acf0b38b362ed996a8fbb0aa2c59b5ee61aebc7d4619e3443d8047, 0x2272f93b4e44566d3584b681b9e1df0737f45b42dd4a8955b40226948baada78, 0x9c478021cf1f936697f66a1bbccadf4e85a411868131ff9bcf1e2b0a09bb567, 0x4ceb5e923dabbf6a853c4c4c5e7999b4d7a39b5977b4326f38c189e7c0fde7, 0, 0x4b107404f322a51d13076a54c263ebe228d565439c0608c8c78b261c1d701c8, 0, 0, 0, 0],
  [0x919988ed62b9758051278a783035cdd1ddb3dae2752ebbaff3ffb6493e67ef, 0x372fc549086ed31fb252c8a4c6caacb37c5ba65ab08e812a1c601bf533e78a71, 0x29c440619d6d0e123f186abf6930941c0556e31e2d39ac63dee8639fc0977b78, 0x3d93fd0187148f5bc3b2b394412e13087926b4f9ea4b6b9138dd87b6e28a7d17, 0, 0x454f4f83c47723a51f36125249958619f63f688e6db24e6db1e7dff6dc46463, 0, 0, 0, 0],
  [0x2117e401d3e13bac36cf67ba4c5e4087dcdb1a432d2a3c730bfc42a22713a394, 0x398367780c937f6977303af2f2482ac00a51a916ac21c7e6919045d82715c278, 0x3f8895746f0012dffdebf39768ae3d58f166fc2a65bd61eac2a01c240fb44497, 0x34e2d49c82b94b905cefb7361385d0ab4e87183dae088a82f150e0cbe279ba9f, 0, 0x3db650651c48c6a08e7b328c54c0797642080292d854bf2a1ef04c434d029629, 0, 0, 0, 0],
  [0x3ea8913f98ebeb383b5b2f162a9530492ce9fd3d7646ab9dbb6757907bdfd724, 0x251238ec2e313b3cd43aa7e8ecedb1c09106c26375858d91deac0ac441cc2792, 0xbe1185b6df78295b44638cff73cea5ff396356aff3dddce17ef8e92fc653715, 0x5b951c1ae5f84083c725d1ca0c9fd1f3ad5707eebcaf65213ac589368e5edc7, 0, 0xca14e802e4b7640bcfc3337b523587318291feb74986f63b56760282d47c70e, 0, 0, 0, 0],
  [0x34c7ed8d723956c67e76039bdd4827d83cfef1e70fce6b8877b96d32f0a1b89b, 0x239f941d81b947c2dc126db7747f54a7dec3d747dbad662161edfde0857f9a00, 0x2a557a1baa3f43e9e3ea9a7831590108e2de8dba25d8133d660617ffaf805afa, 0x38d5a90d3c55ecb6df41a39c4062beb6affd97ec587d57bbba81978da1a0e27b, 0, 0x8bbd4f49e30b3d6c6d26a0526896254423b2eea0355f89b8dd00bd8a2c0df96, 0, 0, 0, 0],
  [0x3eb800206cdc066757c6d725ada8bf3f275c828857216967797d095e4f7c39a2, 0x3ad2e5d24e3999e553a4718e1dd4878230db7462182a47efaf41347a743e02df, 0x3410b94af782ca626b1f4ee2d61cea172671d1cc1beac64b6814ed435b9db61f, 0x34cdf76d2337e0455793a36278a91ee8635b7dbed1ba0690047c0b20dbc2e0d1, 0, 0x2f3fea2cdeed8949d34293f8c3eb55e7e19a6a367a8918c351ad793704e51d28, 0, 0, 0, 0],
  [0x2f7f60f5abb9d3f79d25dc740ba55920d510e2f28911f2e80e863a01eb23bd8e, 0x14c33a4ff9fbd09a049824fcdfcda55e936a99892c68c2a3582c56c301d68015, 0x14ca4e8dfd88e7c0c85d2043e43da2c4a5a07e6e07e7cf7e3aaa1c42f20dd092, 0x1f3c210996315e13b645575b5b3e984efb3f91c1241289b95d908223ee0e19d8, 0, 0x1a63cc1bf4ae0e53564ab82df3eb6a13282331c53b091e110921afb3a0bc8915, 0, 0, 0, 0],
  [0x38012b92ee0e5f07f69a5bfba3e3630ce88133ac9d97ff8f6958f9f23bc5424, 0x154eeba8c7c1e69a7d7fa7315fce846bafc185076ff2e0d216474356171277d1, 0x1dcd7850f3a030daa01e676430e1c7b6818fd5c8fa0940f06bb9525bb9ba766f, 0x115ecc719272ba7edc0f76b08628a5adeba57fd463541ad4d95f4e7e6b89bc29, 0, 0x2e492ced815638672f0e032bbd1d8ba5f11c0f28594403ee8ed56748fc4c7a9b, 0, 0, 0, 0],
  [0x12e90612cab7467e9521b465f994d0ff22a93872a2334b81771c18d6591c976b, 0xd98a58d4559e667b85b8ce3caf3448730d4c1ecabab07be96ddc51539440538, 0x2583ab6f61b8bc8da0519156e853c27ecb90d19d76d781ae1731ef3741bdef3b, 0x30dfdd70c3d92e4d81c256c6aee3b3e046573943ec1a8d5fb9e6eb17d38d233a, 0, 0x30d8290bdeec5a3633607fcbf29e7b5e4302a3b4cb4bfafc897c916f15493be7, 0, 0, 0, 0],
  [0x3a4cf623912214bc4b88ab6ebe66abaead76c68ed1037dd62fd83a5e73f89722, 0x774b1cff13fa9c4682489c71dd00f22b15320d93dfc2700ea4ae46a5718c72, 0x96693c970b91addb87029ed4ba676de44c7b5d9ea9634021e9b0a5d0561dfda, 0x35a0a7b8493174549db223233b2808d54d6e24477d3dd0bd42385a63423d872b, 0, 0x221e536aa6fe1246445cd7b679b51c49837941c188a7a6868d98f4b21513271a, 0, 0, 0, 0],
  [0x3035aa0368e48e8b88656ff400c1b03806de26e3f2d4642e6395e9bf21117ef0, 0xbcc0549c42c600f4bcd34f5b76edf7e657fa1b9167c07a8459f5893f266e22c, 0x22226ccf04e2e010492ab4a1f1c7636593a369d63b3b95f4fcbccb96f4295653, 0x20a68d7026bff623d17bcddcde61274cb5900c9fb13082baab82c6ffcc9450ee, 0, 0x5b3919d8bf63b4fc8bba657e67c5d55c70f398d541fdadfd4a44c06fd073df, 0, 0, 0, 0],
  [0x3f5142c9e8af8ea642c20826c7e727727034b9b0a4c0ba7a554dab4740a3c6cf, 0x9fb2cb426213adfb49d7fc591bae5307b0ff15e4d011f719cdea4d262d69699, 0x1b08185d2e26150ba6b5928b3f25dd8497105e182043562a9d20657ba110d8f8, 0x2ce317735353d01f2f335b9b788bb957c7c3c079ff4b13f5f26563dd73a62224, 0, 0x112fe83cb692c5dd9bf9ed6525fa9e2bb5827eb9aeed71afc23a2e0743da77ec, 0, 0, 0, 0],
  [0x1f55b7f8c14fc4a8c2a04b056ceae5bdf27b1d0d32acf07ead926eb2509e5b43, 0x1d42fde71833be672d1bf1cfc60df48658951a6e35b24daa876ee10ee61e269, 0x8e2093207b166feceb0657e2173ae7561527bc6379561789305c6d939c72f24, 0x3845974d31ed9b0f9224f132324a215a5459cf0dfc96077d46512ab086257019, 0, 0x745b086febee1d34015bfd4124f507e69658117d1d8db7c3e36c37d990efb8e, 0, 0, 0, 0],
  [0x1440f0216b8d4c5883905636295c283d3039c791e32afd7ec04f7c312f43b8b7, 0x1ceffd8ef75739eb5b474b50755f74cdd6208f39d0d542720237a40d1f657cc7, 0x1d633434b25f50a949ee4f15aae95c14b65f6d53637f04746cee76ce704e4665, 0x270a776678ceaa9ad25bf4fe79809cff344c9e21621a326fbd4650cca440ba9e, 0, 0x120ac5f386e1d44cfd1fbd717741dff04b141b42dca07715ec32997192f59fc6, 0, 0, 0, 0],
  [0x19b543cc2bbf3b6d4a5f9de2e4cb85fed093d48a283fea4ef1405464080d11ad, 0x7d6b63204f5603bef1a5db7458e22d61599af83d8960a3296f8c48fa6045ba1, 0x3297b89f2b0dd67d7856aa5ff48cd106706a31d59c3d11a44f71c9c23d3c548c, 0x26508fc2cc68a1ac7b9776d90da61dbc5d9a6d061b12f4490bbf350c8a1af94c, 0, 0x32bac6489cd13113622525b98fcdbd18add111d2aaa7fbd8762213043163ba3f, 0, 0, 0, 0],
  [0x3ebd3d7e0ea0ff89d8cf19b14a03b6c049c4f26d6e27cc5eaa4fabdf74f3fccf, 0x102fe26179c4c042f6d53e3b35b9c96fe03d85f3adcc7ed3ffa0eca4869ecea7, 0x134b6680d36039ddc3fd41535f745f3db0c769a3ce483a7ec5b9bbf923ee8c6c, 0x3556dea326c6e987892c6a24b91597979f8a10cff080b6ab90eaf6c77b0d5c59, 0, 0x28b89e9b8be3ce22f796ea984ef447c41112960207edb5ed54adf4af2201cd4f, 0, 0, 0, 0],
  [0x3dee2292e0799f13fb15160ca9cd2d536f152475e6c2b0f975b87b788b1bc86f, 0x4acc6be3c516facf7847bb48e17513cd998d30ca02e02b4e6122ac484f5b39d, 0x2efc6b20f52105041c344d36a50279390f4b967a67838ab184164d348fdc9d39, 0x3f9db9456c6c15ecf3a53805cdf5c5ff6cd082dfbf484936b62ab4ab92fe1a14, 0, 0x308e848308ff17c35b4ba64b9d96a7d5c30b2685e4007d84f0670bf33d699efe, 0, 0, 0, 0],
  [0x3ddc2602361790f9edb41d2ecba5a33a58095e73b31f2e4869a0fa0803dc4843, 0x2350a7f5001193da1b879f9cb5b9bb172b1850bd5b3a0a14559d859b845787b0, 0x54591f275de5861afbb5892b915505def9b17778d319d77a2372117625ab6b9, 0x22c8e4158130d4b8870639ca6f593f0fb503dd856bfef20c87fb8392224dd6c0, 0, 0x2301141bcd766f067c44983055d0ac2b73e3daa55189c2e7352e1e7d560d65ae, 0, 0, 0, 0],
  [0x392dc9cf65a4f53943553b33fd0bf5f003ba120db1b3cdaa19d26796351313c4, 0x271ab3c12581deceef083aae92d062718ae029ed24971f182ba01a2af8d440c7, 0x10a955026737f42fd0875b4654c61467be41b371ed330e7ff61876ce47056bf4, 0x2818fd69d97942c9295160c27900731a7554c1e91ae6a4eadd6576b32c7f6a58, 0, 0x381fa00805553f4f8eb9770844b434dbcaee5c879c153ce1ff1b2c8c78bba21, 0, 0, 0, 0],
  [0x297f6049ce4125970befb0c86d78f59a4dfa839ba7609ed2edfd113769eb7b54, 0x1225d727f8a7354a208ff4aac26815ea992b46794bf2579b192e346e7b19fc90, 0x3592c5a4e812def717b2d8fb7aae98565e1f864ace27f0b55d504bcc46f4dffb, 0x13745d0d8b3b3a76e3093cf1ea1c3479ed6ec6587f8ca990f0f7b2cf8e45b5c5, 0, 0x3b49c6b2cfd445d48b5374e540822faa5ed04289291d7206c3b1f468f67e951f, 0, 0, 0, 0],
  [0x2ecab849ef4e687e6079beb9f8da0585a491a2bedf9757435077ff76532f7d2c, 0x13ae7d84c5b0d25ead419e2d93d4f273821a5c34712c56c40cff622e6e92d670, 0x1527719bf8d95e36144b5737b3b6bf5cfa3895918bdafc6493ad4ca63df3fc91, 0x23590ab23504353b5992ff01e5edcce7d20f1572d0c8ca7a19b65a2c9c67231b, 0, 0x2839a238736d06c4e510edd0b6048f5d2f7b89c8a1a9cbf6c2b6104c26890a66, 0, 0, 0, 0],
  [0x386449015784a7a63799f15bbcd75890cfaa0775c46e4ddf38a595518537195d, 0x75f2532470fa4ed5afc51231ff96fd0633044a5afe5289adb721f44dd0a69a2, 0x3592aac926346c787067d3845169c80ae0d6d8af166e11bef77ca3292c01fc36, 0x1ffaf90943528c501d6531168220561c5d565d0fc501657158e9470eeb542848, 0, 0x9a7d95da055cce3eefa46526070e06abfda2ea60a924a27d921ce1fbcb9c5d8, 0, 0, 0, 0],
  [0x3f3b7dc3e41d56453f76fb32485664f862307479e939523af1ec9937c3c00dd0, 0xd7b5b81f7511cd8dfaa48ecf0c7fcae71ff938d4680d70e03427f5a276d3404, 0x373fe3f74c1d1d895298263d080b82d0efac2f88ecdf1960ab8aba66417c5a1f, 0x2c08c7150b092fafc5944da253e560ff48f57eb62f05c0b5ba7a6f57273f756b, 0, 0x1ca4e5179af101e8e7b6259d38c349e70cec04f09b28d69af0b25d2fa25e5216, 0, 0, 0, 0],
  [0x31ea2683e7f76dbde580f7c5cc142fa4e75b233c29b2c7b7c7eee7f139dfc0fc, 0x1729e30e44cb2ba8321960e16c6188d4211ee27c35538941e84df6ee4e369b7e, 0x1f1ef7f717f566e96fb342371eee09e7f0b684dcfcb924329fe78e5a0ea55236, 0xc15d6830c7b0144abba5f20ad6a4362333840606502e360ba215b083491eb58, 0, 0x34845a72e47932b7ba33fe8c17c5802f0ceb05303dc14e92f11af6fab5eb953, 0, 0, 0, 0],
  [0x21deea1e4af1062ba93efe0352efdc19ae955b26026863533a2e46316d1347f1, 0x38909eff112cd2b8327c58905a2dc4b4a7df017febde309f081a9d61a4c7f1ac, 0x3805d10594b0bb9df03edf547e8148f59f8145703e92798d340536c40d880e03, 0x24233ee61c635c3b898c4b9887365f3ea85e40bc0e2efbbffbf0f7ad9db9a8b7, 0, 0x121fc619b3e7fcda24ff8bd0cee17c9e2fafee35a0484cdb8cb50add6420dd1e, 0, 0, 0, 0],
  [0x1b100273eabdc39ab6b930de7a1f07657123ee48ee9886a1bcd87f091f2f4a78, 0x191f6dca9164be543fc9a191256722a7e7e8118beab9d4d7df39f81373f98c0d, 0x308c50474d8982139311409e9f6ee6eaca62847cfb19dec42256ed3bc82abb05, 0x92c9fea19916bfbfae28df8c5873b8464ffe25e4fa9c408b5909c7c1d4fcb0e, 0, 0x2d35f8dd4cdcc48ea944d1cf7ec1206bcafe2f050e71456bc2722f62e1105e31, 0, 0, 0, 0],
  [0x64f0b0fdee0b7c330e41fdfd7c797fc79b5a3a591e877fc82fb4bd25e0f41f2, 0x2f674360f34ea6500926855af230c649879be05e66409b6774e2595f0bced7d7, 0x11ea1bcdee88a7bc64e1182bce790a010bb15f13ae1d1ccaf85a5ab676f886af, 0x32c1138d7ea40a83faca02ab4bbbc40fdcc15ceb61ced828d15d2d20ad9c276e, 0, 0x13d6939fe18f1f24792c2ccf0b84920f41b5ec0e3ff0fc50d2a8324875322499, 0, 0, 0, 0],
  [0x21a9e67035400889cfada8d7acc1da1e13cea889a0636bb7958a2e3f6af8b1b7, 0x9339f5b2003ce393bafdb724e85f0febba0b0eedddc8cda43559a07695d7328, 0x3f7f437c64391807577f7f49be959ab7c657aa1ccefe7a26bd0974aa36782e21, 0xa407be24d9d7a9b2cbb3b9be65c90f8213757f8faa53a4e5f7bf2a3baa6476e, 0, 0xce83675475d878e5953296b22c494d10f3df8dcb572730664a2b7ac4a6c4bba, 0, 0, 0, 0],
  [0x25c7871f4c4576938d70ac54d46a9e4e6efbca43eb19ffb1a86c32998a1286fb, 0x1d8b9e03b51ebb979c97b68fda099271b8f3b300d3e9a4b60565937a711fb990, 0x1bf6c3e559798e7c32a1da567d4f674c5f0c3e7b71f3800e377ad2bf90a2aea7, 0x281a4f4a8b2a82d98f207b87b5df5f3dc334af0b2064f3914d34a2e3a07ad707, 0, 0x28302d1606f120f62ff3bd65f4b60b2346ada4f5381e78325d6bed17af9b8066, 0, 0, 0, 0],
  [0x2cc941896ed6f06911902e857eceabbcf711c2fb1200fd5df98cd69b1703f4f5, 0x38db9cc9501648ed92627e3c33bac18a8e9bfa57824efd41e676b7f95e767838, 0x107dd59da530f4a492da1a8935c1d8ba31129a2a981a9eb8994b2a9b0e906e21, 0x13564d2bfd5647e60cce6e72ecb4f7ae71b174cfcd632ea7e3b40ddb73dc41c7, 0, 0x19eddcb22297f55ba53ef595456e5fdf099b3e1875f51633aa87b86ae7b084f8, 0, 0, 0, 0],
  [0x11b5693346d8e1810d79d32cce76fe9fc5f213c8a6709ef8a6eeff2feb16050f, 0x127cf657ca9f11a7bf621824e49d0420add9d6adcc5bc59fefb02302f713981, 0x28c8ac55f6dc62320a28f07a82b424e7909a4400408485d2d00c993c58b2d366, 0x25de3b6fc142af05f69b58d7239d46e27e4e8b2c64deb219a10565bb301544c, 0, 0x2ee3cd9d52190a26a7d04a310fdb8587f8efb4a424546e821950250417ecf902, 0, 0, 0, 0],
  [0x346e5460a55cc6a721613f1345518c3d00bcd89273ba06bd3df9609befa81383, 0x4ac39f1397021b86039cba9626438978e2020c460372788f6fd5d133eb69a6d, 0x31f0f75ada5acbd505155687c7299ad670da32cbe0930d1a2fd8fa7fde93584c, 0x25beacca0bd9e017713083e78898669fb79881fe82b7e16530cb2d2f83ff728c, 0, 0x1de433921a32f902d46d37239dfcfac9fcbece8edffa1ad97dc94c47d4765a76, 0, 0, 0, 0],
  [0x10dd8e42f4ff08769dc6aabea4b34c02e1b905c6ee6557eab759945014c71ed9, 0x2f2bfb1dd3c305ddaf00efe74294ccf3c223d8e262ce7614c816a8466ee0b34a, 0x3eb9d9ed6ee23e968004f0ab33566267ce41740802a15c2ac51512321566894, 0x2c0a107f97bf3fe6d6793b86be2e14d80f47b4b38afc2ff45548cacc715fab0b, 0, 0x10be95128ead27dc5d00388737af133fce0eeaf6f7adcbc012cf3cb6d0fd4227, 0, 0, 0, 0],
  [0xa5b598f4be87226728a56363119ad03d08d7851fe5da844d9ad0591bd615dd3, 0x10193982cb9a091c98b04eea4c040bc9c34eb1a6b8e7c0ac83728a5200686deb, 0x394951c39dd67d72f88babaf535b4c3717e04407d845ca4704cc67708604b1bc, 0x5b3bd00f97d06b21d481fe51b7a208301400e3313980db6fd0185dce2b56a23, 0, 0x1ee8eae3117965fcbe80562248ea16c57f26121a3883d7aaa04a376350cc7819, 0, 0, 0, 0],
  [0x1c48c363fa57926a623e992d71c14638031d2a2ea1c6ac0b67ba904a682ea51f, 0x2b0e341f644fc63ea8abd31d6fa88e8d81287a85708a9cf9733f2874aeee3ef0, 0x1da25903dc70a49668caf5d63d83f3dc3ed14541e169ceaacf8686fe2d5e971d, 0x756fb151db3a635ed92e7c2bc5ba5eb1760f933019081dbe237763b4cbce923, 0, 0x31024ca04278be529dc6951439219ab6e8594bf31b7b5f67ca35cce48a3aff, 0, 0, 0, 0],
  [0x2ddc8cde4fb108065cdb56d9407de399cca3215803334852478fa927c21fa538, 0x389e1b96710fafeda789bed36ef033ff8d6e4ca1fde6e967bf0587a4d3e0da4f, 0xe8b31b8333302faf62690a5c062bd0b6986876a56f312fc0cb2183ef49c2bc0, 0x8df06145b144e5316a1d9316f84d4466d5011920df0af40bb8ff08ff7ef836b, 0, 0x108d6cb5ea5d23d493025f2f3c6cc291bd1d4a37c68df2c3142250f846ffba09, 0, 0, 0, 0],
  [0x13156fc2f811b4818af9a808bb760c43d51244868b67d6d9c77ddd232180dea4, 0x3e37a910e225fe26e222dfbe1c2ff391b13964cc78808a984ce689a7fdaa2328, 0x34ef012ad88e9c3ff2ba7ec5edebc5215b511d9e5d2a7de74ba59ea8f21280e1, 0x80deb745b628d520cf5eae6b723d65f7deb7f620754c3fdac0bc4b08d83f5a7, 0, 0x327c19b9546348620100e8dd31e4f9f26686be6e30e6cba261f659e63fb7d782, 0, 0, 0, 0],
  [0x1a1da3d65bd5f5366c70194840a02bf76d2485e9b8f8237f804e2d738fc02e87, 0x4d000e55563497955d9e83c98ed6770857e38e0cae9a69d0ab6572cc6252466, 0x1c6cffcf6fc7f1d3a86a09eb5f3720fb1fdc9cc546cf399a60e6d126f051bc58, 0x25fae2de9f4d5c0ae559e918238c2a33261848cfffa36ad1d7cdec7840f5fe60, 0, 0x379f26efeab541c09670a8c44358f1909f56a22b035cee2bd7845e859050de11, 0, 0, 0, 0],
  [0x20d5e7ea001ec6fee08fc92d7986ac4516d558a0e9e6e7fedad007b359388ee8, 0x2562f8f4bd83638f9d33315ed7ef7d652872a59cb26ff3f07d9132922ad4161b, 0x22e7703b2f0e0b4fe0bce58a4fc3d9f1848d0d6f43942861882c54ef6e55cf9a, 0x22d87da428ba10632ec2ada8fdaee4c5b743d8a7bf8e73db5f9b50b345c392d5, 0, 0xff40db48f0ace93b9e360df3edfa7a1026d79727744253c5813d9feb1ad785b, 0, 0, 0, 0],
  [0x821bdcb8ed54d0e4b5b2d8e0de9ceb5670d36a9e831bc96fceef76df791d47e, 0x31e13762d7078a7075f23f29c30f6b9532f4cf313feeb37e259f71e0e6d0915e, 0x3bce1913512fc98b8e4a3c29e17db61c09a5bee893e07019c4c5b76053c03b0b, 0x3d3c9621f48e0a03aa8cd1478c2a4d1874d26c179b83d990bbc88d1e594e72d6, 0, 0x25acd692e1cbb598100f05d1bd0e0387e66058685bcd3f7a6d1b9790a6690d2b, 0, 0, 0, 0],
  [0x3555afa8b7528b3bc706b1eb8629ab901d16dea19c4a57f7f9941a1b4c5ae2eb, 0x30b6787123c50abb9b3af2b995443d55224a2afa4b1aa9423bd5202c9e8dc4d2, 0x32899cfbe5be3102170bb23a93d7cb62b2b5b5bb03034f1ab59e4c26ef828a83, 0xa15978bf202e64a56a53ef93ada50e10649bae7439f62e5ed8227eec3838cfb, 0, 0xe0248d38c1d6dd5db12ec146ad7d55191e3183168436dc7d089b3e2f27d8a5b, 0, 0, 0, 0],
  [0x2a30b12fb8b3000a6ca570652af04e6c052215cb9b86a8d33230f3f157054606, 0x4c8b0ddfbca982002b536228e1d326624b96ed9e208d13d6bb778a45d4ca00, 0xf414ae567e3f7f79abaae83018918c50094de5e0504e4fdbe8d22fcc3f9eda2, 0x395c708b72bc35789d5aec967682d13d78227d66be073d208515cfce65e1a12e, 0, 0x3b9a7c4f87e4f613543ee6c94222889cc5cd402659c553ff4ee58e5d9ee8bf54, 0, 0, 0, 0],
  [0x2d92ad4d4ea03f03dbad62b1bc611f7673843718fee728e9869d4be417b7d29f, 0x19c043d5104976b1475683da64fc8daceb31a377e1a676693be68a55530edac8, 0x16706f076455e0b784d5846736f8e9ef22a63223428906ba74a1dce564f7607b, 0x3e00339bcc86148625f090049b0f4e6558a74bbdd9476c9507def96d6e681f33, 0, 0x3ab905d6f42c7ed44f32056c88a2705b3bf36409d26495739d4ceec41cad63f6, 0, 0, 0, 0],
  [0x3748d975b118118719925e1df5f85c3cca5e13683e76b98f829d53d564849809, 0x2f86d81cfc6fc90cab5dfce03be4d1c543f78aa5598e61a63a5638d9523c87ef, 0x14601af1be1379ef354b0a54365357109eae78d7e2afeca1e40b0cb45856bd09, 0xdd436c6992dda7c03eaa9aef425c819ba919b64ce19ef06606c0323cb93eb2d, 0, 0x2b0c338bf4fbbddfc36d2a7a12fb62ef599455e002fd1eff5bd6afd569d50300, 0, 0, 0, 0],
  [0x2d4af5ca10eacb9aecb91baafb4d3beb0564613bacc961a8e41f25ec493eec0, 0xbe4aac151ab79ec117a270b9b2c2d419145164b33c4a69bbf6581ecd806ac4b, 0x7a682a6049c44989c83c5db2b1243f3d23f42f147f0a5f255b09343b6b0693b, 0x94d16818dedc6f1342238c5a5eb94dfe8ff6e07ad03a648fc58f19c434f2adc, 0, 0x1193ef459884aa0c2d3c1ac15db72eeeb809830f66c1e04a9854a41b9b74d772, 0, 0, 0, 0],
  [0x3738e55e5cf5815e5fa9006c4c49441cf88d26bd798db2ffddc8c42a5abb460e, 0x36acdba58d47243f50c74dc33caaf0f08d29219e42d66ef1b08317b0ae24ddab, 0x2ce696f71935a2a34cd4898b920b4bbd087022025154796f37de9e7798e43c3e, 0x2e81671fce44f912ddfc0c3dc27ae08862347252f430ce0865aae530f4c8e0a, 0, 0x2e3a4838f2ae2885143796ef975caf7e928a7df8782e51b5497b5b8b28dee948, 0, 0, 0, 0],
  [0x1cc86b88a4cebb11d63268645cf9b784933b878795e09204f53d8ba6b4805cc3, 0x2c8aecad004c66c6a65419319e27c897999e24e049daeb59cca5ed3cacc7220, 0x3d4219ce96c2b1777832fea391307258818a0e92fc162f70bdde346cb4d4bc8, 0x153a18121e2081ac2851f94b11a5701a1009ec946bd69f816de1c656ceb7f441, 0, 0xe0ae69acaeba16d7d58ffc57e7696fa22019bd68c875cbab983f9f8d38d0296, 0, 0, 0, 0],
  [0x154866f4b2ab973a5ba4c35d72a79cb7efb0f82be73f4e0229806881cfc2a739, 0x1cb7f7ccb4de2b795f1db401cf4ed6ad4a9199d5f78c021925c663da662787d9, 0x33bd5c349409bfc3d8a0d2ed7abaf21f5e011ed05d128b8a6e6a57f7ffee06f6, 0x3a790fa467c80f3d3f818c32a1752a6e1dc06b471559c7b8804c2366d16fb0ea, 0, 0x228184889518c8e1bad1629f6009e3edec9f714b42de74de59143c7ceeb4126, 0, 0, 0, 0],
  [0x3576c6a0cf3f6e4ddab7159d58ad2501c38b45909ab5a0906e7ef1d04f0f90, 0x10d301eceed5e5c27347b0744c4741d1c4d6c86b59353acd690b80d0b5675c1, 0x3265da25c237aa58f1f477ecbac0f9e6e2a0deea8a12176365af7b99c1edb0d3, 0x25d90802188a47b0a4757db1666303c96d6a2abd135c29c9629a7f2108c69b02, 0, 0xb23a5b8acd27c6e17a5e5740b483a7633c107e561111d12b07866024e8c43a6, 0, 0, 0, 0],
  [0x77d33c0091c0c049feaaca1dc39ec70f6fa4acfd0af8293cb4120192507b168, 0x32053f24db41755da1f4064a5dee6c3f3f2ec7cdacbb7c9a7c5a3eb158561034, 0x1fd18be3123233af724969cae15b1fd934fead9da506cd0626f135104d30a68a, 0xfe9fc75299969d79e476b7dee1a509f538d2985bf91b4190ff725219f0ef3f1, 0, 0x2a658e4cca35ecc6cbd407d4ad004f8f201fc709ca8a2d6de65cf3c03254d586, 0, 0, 0, 0],
  [0x2e3f313a90eb5d334bbf6f75cbf060887372ee3cd3949394f817dbc50ad3c87, 0x2bcd3569ad1e59c07fe6de874ef953c1ea7bf2aeb63d77b3df8d01517e2571c9, 0x304ed3f4a93fe9a3b280f7af28cd95d941566cdd975d18746157769d3b5f050f, 0x3af6298e81e8e4fd3d0e5a2c7d4cfde15844d908803f9635f0ae3842e2fc17fa, 0, 0xc7cbd7df8033cc16a43a4a7bb15958fe68330c1e8465da836fc23ec10aa3ba6, 0, 0, 0, 0],
  [0x173dc84672fa04bab8d625c038d739b4cc68c0e932ca7f03a44fae2b1b8a0201, 0x209db6f3fe78da9b58cbb7258fab975a478427a647e216b5bdfecb6444bad680, 0x2dda7feed5f579a54b5ab1ef912eccabd1d5805058f3cdb81d6c12129f60c4d, 0x22bab3ad2f6ab98266842d9be794ae38a91c02161107a9a0c4eea2cc918d9cc0, 0, 0x1a0d5fca1f3877db4fc2371130ec74c48d420db7b1f7a5e081c67febc5e9f68f, 0, 0, 0, 0],
  [0xb6d0e7d8e91f7b3710ee9fd9f85dc43073fad8bec301b60abcc77ccd8a2bf1a, 0x10c4ea0eb3971694920f1b304c00035a917ad0484cc6f751cc75e1b6e809aa51, 0x14d0ef743b59fb8c993efbcb6984e01ff336f92c1fa4087f793b7bb15d287df8, 0x2e3c9a13b62785809d66e2f1877736d06ebebeae5fc4a287e46aab1124333d52, 0, 0xbdad9c136a4b0ead58bb11f4f31e1528622f25e1ef3c640921682cd65efee17, 0, 0, 0, 0],
  [0x1e1dbdc6afa96e8ab5e705b85de078d11a3fe4e7462d7547068adafcc35f6ab4, 0x28e564f79a9b34f5c708d9af6ba1942296deaa72d0245542a1a64fe611fa7646, 0x66718a158867fcfa5db4486bcf0a0bf2f2b2bee05ef043af547e50eefea32d5, 0x2ca791096bca5a28e70720c1d075fa7d5a7c485176131d6740d2ba9e46bcb1f6, 0, 0xf4b47df7adc13340462db596e269ae4c9a1261320f694b696901f81d55f4778, 0, 0, 0, 0],
  [0x2716c73ea5a5d2aa12b4414434ca088856b7da1976e711e949b12dfd6712f2a2, 0x2cf5c008a4797da6e3ddfd4904f06bed0adf1b720ce2302c9d3f0d531e6c3b6, 0xdbb949674e662a409d070cf5a7a550f7451466607c2600e02a123f77f48cd34, 0x38ff2aec6a5f55055ab0f7c2e7658522a5aa4575ba305ad8bfe0d1d56e5effcf, 0, 0x27bf28ab8799adf481b92a6270118020b1dfbe278478bdfa945885541c2d7511, 0, 0, 0, 0],
  [0x99de2bc8eb9c34365cbf02da5dab12fb19be97b5e433939bcfc6e43f31e64ad, 0xdcb9509118814b7c703410bb490522ccc2487acc93c4df4dd1aedad1226206a, 0x61dd30e4991352ff98b7d0d009f04223463d079e0f1f9cad45e47504e259c7c, 0x349c43b2b302206cc62692290ba2308838716b4886d2c7aae284962a4db3d50e, 0, 0x1fb8ea52e410fe36527ac93f5b0c8c03350f73979906e804bf74e7512fac0a68, 0, 0, 0, 0],
  [0x102d0147256181588302a97950929907531d17dc86947abaff5c97ec06bd41fa, 0xfb7e83f907885bc3648e9b08f64e8d169e65c0cabc9bcb856108d5b7ad7c045, 0x302af893eb9aec9810334e6fed991af4304377c13bde9043ad1c02ec33ab7ef, 0x37064ec0aefb3307803066e2f65362cf64a17fc6e6b983b8b696cbb42fc94751, 0, 0x2f7660654bf8d340f136fd0978b1636d5ad81a2677299c1f7d1c97c086ac0c8a, 0, 0, 0, 0],
  [0x37695ab1e75982415ef305fadbf4bf40730ace246132858637877427980f3602, 0x24048a4d077e40ee5eba90c3b0c10a9f7a12b5d0c8223afb9eddfcf0bc14c186, 0x225b99ac437df23af4cbec9edc62b8a1011b16c7fadb87e83f7922c6c874089c, 0x2122dccda29fa63420596c0a7ba3865782f995533d55e83b1011f152c756ca, 0, 0xcaf0107b03889c807dabb9b2922a1eb531d875ed485ee60b26c88cc082f827d, 0, 0, 0, 0],
  [0x45587513fd1ec55b25119391a022fda6d9b9de007ef66e3251a309ca6c67813, 0x10fe8cf4fa5cde44078dfde176f6e13d377b7df6801adb65fad64fa7537e9da5, 0x3f02cd6fde52ed0ae704134a9bcb13aa03fc70be246ffae098ec837881e39981, 0x8ed7d90faef7252ad1a407d8d77edbee9c3774913ab0fa57a699d89fb5e32c5, 0, 0x2782789b0b03d0ce8925e0f4fb3f6038863fb266efbfa2d1c4a403b8dc7a9c01, 0, 0, 0, 0],
  [0x2f79fa7be155f3c9fc1c52c142ad6acfba135e60a9eed3b75b18a9b390e2142, 0x3a214852105cee1aa2120113596fc08c95ef7b27a11d29607f7d584d35111cec, 0x3501ba7998037c4b44e94b1fce7ec3aff804579efbe955844fe0bad9fff6c638, 0xdd9611cbc78bc575af075a9cb2c589a8ce651528c2d61388b5abd31daa9ec48, 0, 0x27748e1b1ca12c1e61d1bca06d4e9bab2c520bccf6ea73ef4f243d72c17e1078, 0, 0, 0, 0],
  [0, 0, 0, 0, 0, 0, 0, 0, 0, 0]]

/-- 5 times (-1, 2): the last addition. -/
def five1 : List (List Nat) := [
  [0x2f79fa7be155f3c9fc1c52c142ad6acfba135e60a9eed3b75b18a9b390e2142, 0x3a214852105cee1aa2120113596fc08c95ef7b27a11d29607f7d584d35111cec, 0x3501ba7998037c4b44e94b1fce7ec3aff804579efbe955844fe0bad9fff6c638, 0xdd9611cbc78bc575af075a9cb2c589a8ce651528c2d61388b5abd31daa9ec48, 0x25b325cef0004abbba516568fcbf56d183d72b54d4aa717205d4b52a7c7c50c7, 0x3efce3fe8eb78533d5d415489c190b08407cf3e25ac0d10b4155cf187be5c78, 0x1cf2b69afe0d844af534532ebdce772ab20eff3df5f369794729598a08bb2d20, 0x180d9bc6ecc6583d021cbab305833274b49e58a95ebbb207f3464551373164ec, 0, 0],
  [0, 0, 0x330aaaecedffbd4ccd1e2d490ddb9ffdb3d7db2a600cb15d46fb61f4fd700ed1, 0x470a2a2a4ab53eedb1671ab21adb4b908f751349a7926d827446ca1e8709285, 0, 0, 0, 0, 0, 0]]

/-- 6 times (-1, 2): the windows. -/
def six0 : List (List Nat) := [
  [0x345decb06f7143c0e80d53270686b6b3b84c38dee8808b333b5598770d94ef07, 0x181898f3218e4cb2d00080755a06c04b4f1afb240f892a2fd97802d8799aa41c, 0, 0, 6, 0x30f3e373eece5736afa9c074d2e6d1762d7cf6ce46d300754e4187bbe553be4, 0, 0, 0, 0],
  [0x2b63203d6bb657e0ede720751857d3c1f06b175577cb291ed5257c883aba0521, 0x355deeeca4dbc28cbadc25cd79c8c2c971006b88172028529ec717347049162, 0x345decb06f7143c0e80d53270686b6b3b84c38dee8808b333b5598770d94ef07, 0x181898f3218e4cb2d00080755a06c04b4f1afb240f892a2fd97802d8799aa41c, 0, 0x175d2062cb45d341866f01c4e7c19842a99f8647a297b446e03b13a4ae23d8ee, 0, 0, 0, 0],
  [0xdec67c5865cc934c6c5f772ce6499723d8b8b7729276803c9db0f675b85d2a3, 0x2c298ff148170c34f2dccd047400e54b3b2eb1e7d1c5472388f59094785f10bc, 0x16eb7a733370c0827b8d0d5c2b7d1ffffa1acd0b52658a73fbd5e1ec3d2ffa33, 0x17024d4712a53427692205942cb68ee19ecf2d6a8d569a2266db64c76e099b2f, 0, 0x29ca854f9a738e032547c525a45c018fdcf0702cb1496a4ed7447120bb2f386e, 0, 0, 0, 0],
  [0x1522d5a4b71211939dfe3b7066d27c8aa09415d0c215c8e5446bd74b84ee40d8, 0x23e876003359803dc60f872641c1bcc4798261c3a4eb2e695ef4c0c4fb24f54c, 0x191998193559ea10731039878aeca85cdd8a926d352ce111d513c7d1c8dabb1, 0x1477da55d5917e169635307581bedfcf14a51781f1c4c6cc4e9eeb5a09cad11, 0, 0x2a55af61a1b20673d39a874370ed95a456a8e768b5300ad6f381be28adc1262d, 0, 0, 0, 0],
  [0x2138dec9d478796ed51797e095f7333bc0e13e4b347b9f9e8008f2698945e3ce, 0x15036e0026cb3247cac264892dcdccecf5f8ed588534dc80431c219a048e0b60, 0x213b01ecb0b93a219836051d19ca12cc62c8cf6a0a28e26d8049299fdfc2cadf, 0x30a3fe6e2668be948728533483a754b2791d3461b6f14bad3c796ed80301dd4f, 0, 0xf2246a0460747e778224e33cd3483c13a5fe46d33b9cc0f453ec0b3b2090d83, 0, 0, 0, 0],
  [0x1f7867fbf8ba29771268a7ee1915a2fcafe5fda4b5f7c321d88066c30ab72815, 0x30f57754008e27fe58d42fa2d3a4c1561046b07645ff5a1cf4a292c9984d166b, 0x22cf407beb0a8f307af8222c3fbde3e74786dcf0716e4775613f59893a130ea9, 0x1be5f1ce77f18ee59eba522a745378bf41cdf9970971463e3828fba76ad35055, 0, 0x38761856281aed82f1e06e93597369f22ab82c9148dd33e8664eebaa8a98655f, 0, 0, 0, 0],
  [0x29fae509ddaa173033eab1e9bc38fd8980ede4f5e1a56e5d96c940e6ae3a2cff, 0xecca5fbcbf7fcce23a0937c06912d4a03e8bdbc13d22e957fc56e45619765b7, 0x29f0f58775bd693a5552f872edf7db631358933b2ec5f3bd5a1a848781023048, 0x21f79d99c1d73ba6f657519e08a33385526ba18ae924616bb2905e1e6ddb95ed, 0, 0x36496968453be26f8302a7360921943f8e51fed926f4f0d5cf7083480cbcd6e0, 0, 0, 0, 0],
  [0x16dc2168a0d326fd416a3043ff4756d9ee6bd72e2c5e3f50e478803134fb5cf, 0x34bc35c9ea1e4aa198e3bd4ed63c0f790f71ab84be1a4756690a78c155477589, 0x1cb906a3780f3a4cef69e004792656218869738fdb14be6e628a38273769286b, 0x14c8417287f631bbe87f08111cfa4b6ac8bde5999ce23ec4a9fd91bd28510e6, 0, 0x29463dfdaa96b47998c8a1367f422841aa5b764cadd7b25a4b781e683c6b12b9, 0, 0, 0, 0],
  [0xadece9b94a0141da7378b261047c0ca24b1c1ef05e2055d9ace940d47867319, 0x2d599dd661fbe1d728439b139c0d83b74e9f3e6986e68f7480545d4ec4d24c97, 0xb1bd2de00341bd6f4e0143a9d96a2df21227501fabaf77245d2ddc394b701d9, 0x1a748e40de23e630da7c8ee6050df35f105dc14264cec4d0c09706cd7a420aa, 0, 0x1fed61a4056e090f282ef39423047ad7d23435de7084289748add4f2654882f3, 0, 0, 0, 0],
  [0x7924f429e6518fa218e3b2f7e145a1a4249c683df9a383b64f103dadc3934f6, 0x365ce95b3472ef4180a0fad6c13c938386a4c75726e2a90f7ca7de2df7024b15, 0x14401664d9a16e38d65a7801931a8a81ad23f7d94e9762deaaffd54c9ec49883, 0x2f7d98bb7e15a45faf9fe2e7b07661a32e1e15ede7019cbfb0d15f458b1cee9c, 0, 0xa7fe045dc6febb49b93e0a5c262a1e4af20f5d051f54846e3daddd0c98d375f, 0, 0, 0, 0],
  [0x24eb81f7a3878002004c0823d822924e17085a3779e20797e9a42d9530343cd8, 0x50f5a5422c181bb5cd873e4df4271ccc8799721c7103728f9ac27d89760a231, 0x32981a9e0db75104ab91eaacca2aa6612e5718d493781520b85ee167049327a1, 0x1093e735b115da18e3ef448f00eb6aab8aa201eddc4a69d5e947b667457876e2, 0, 0x2b1e9197b51c9d81cbf851c9fb5711217dd27b350d0b7e6aa272eec2c0f6b47e, 0, 0, 0, 0],
  [0x39056dc14eb71fb4565c2400133ccd33ea4b0a296ab539f1dff3669d750b7217, 0x1e8aedf00646a9a8f8ea16ef04b1464799348bcb71a0379a64b55326da1e6f4c, 0x2c2103ca277fbd56e0d97fc58fe511d8ef1fb30138f84948561b73a4884d8d54, 0x24c5769fa7686253cd2c5e9bfdebc31ea38835a5128b59339879357eef31b0f4, 0, 0x28608c93a923482d11d9d09c6b23c3f381bc71f051bb18406f1ffcfc467b7dd1, 0, 0, 0, 0],
  [0x3f93c36515527fb128fd02db96b42fbdb6aa4233f1615aa0386ee16170928277, 0x647120e85de3d817447faa657a1263ecd3a669a9d7c110d262c548b71f22b13, 0x2d6aa01f1ef3880bc7c32fabb142d618d4e632ea9deedc2a4d434801736bc490, 0x2bc9bfd23f02e6be79861c62349c0180cb3cde16d48c2f40e77858f4bb236645, 0, 0x3f5ac3cab413a65f84ef9dfc8431cf1114eec653ac6904d428072902fee9994c, 0, 0, 0, 0],
  [0x3959635fe2393dc1b12ec306b1aca45a80574b74b7e46f39b893e430eba317a, 0x372086a11251e56cbcd26d134fcc6540a771112084459055d6cfde47b6b54e17, 0x37e2c4280d5c0ca56d4d73933b3336cf15357e0852ebfec67cc0ed102d3c3412, 0x2d2aed18b59798f1a7541261be6f2905102615e18362c87f8761256a68709c7, 0, 0x336a23dad134aaf3431cc153d64e83e495e0d4291c2f17cfdeb2bd1fb90ce8f2, 0, 0, 0, 0],
  [0x28c82b5d9111e0ad77369dcadb243ae7b9d27348ccf3c681b1de635b46944452, 0x18369f0f53baca3c56eabb9684cb46b09d136858e269d91f25554d6ad14252c2, 0x1aff5a3c82cc8100bf2f9b6586fc719617fe6f99ea01f39ae178178ed2c6678e, 0x335f71bc5d0b35b8c80da476c97ca78ee6f977d013b7e388005c1bb6545a98f0, 0, 0x32c59c8723139415dcf32211c6e8c6f0ba7851ee107095cc29953b9c4827313c, 0, 0, 0, 0],
  [0xf8f507d03a3c83dee6b35d3274e32315f6a1101f01b5530e885974cc1994bfa, 0x2cd572e546d48b096d07c189665c94e83c7162e986750be2a6170b75ea6c9400, 0x1b41fcd175352ddc61451d8234baf48bc8510c2c1a2aaa1826a521db2f548df6, 0x202b2cd90fecb5f824f0d829e1d4d04b054d7da32541e782ef5715689fed56b0, 0, 0x12f6c18a93089cd3106eae6b73cfeb07c60f512a1c21fb281ee4a393dd137991, 0, 0, 0, 0],
  [0x35fb5064c1dbf0fa3c81ac263e078d0e75793c2f0e460c79a784b0109fdc161e, 0x1b97e3f8b26afd0cfdd42df624dd0c8fa26641ba094a19e116efd1660cf439fc, 0x11218d80e731ff757805d24525b3a06a28106de9dbc2c1aa7b2ec728e30fb81e, 0x3df951c0d0ddd47f009d6452e227e676397e742aac00b4ce4f294d5977895865, 0, 0x899da8f2b32fd08986a4d3002a16e7ff3bea4fd342df277ea95ef4bc1b6fe99, 0, 0, 0, 0],
  [0x1d46588618dd0f1332bc6a096ef6647386de899a13088ba28fe738e3bfdf1e0, 0x3149bc6b844df39f0ec954b798508405e2a402009b8aa454eec19ab3e8a344a7, 0x222f9507381767902783377fa12265ed3c22b95c98bf0ef6149035bcdc71d597, 0x2a987b85282b94e50f1ae4e9f19ff5934c3b75ecda7df4696a158e10c2d76fff, 0, 0x1f9f2c9906f41e0927edb6c07c91e958a5466d04204e637039ac88780187c3bd, 0, 0, 0, 0],
  [0x21335f7d664d3fdbd9c75312e1cc4f6d1d4a1fa1408a28dfa3a4dab46f8049d5, 0xa832d47034111eef9339c524d2a36abce7863238d1b0e439cdeb50e9c0cf14f, 0x2d98889d0310c643a0a976cc1caad9f6540f805f3e730aa07f791638eadddf18, 0x2b8dba316220dd8d4467445cf4cd305e7241662ffd77e661590375110a15931, 0, 0x277a5e4aa04c5c2f47df1be3a7853470ee225f4b6aa0a22941df96fb172b0a19, 0, 0, 0, 0],
  [0x3bd3d42450e89e52078b029c8d1d6869ada42e72451091dad3f403103098377a, 0x1adf1d0241bb0640bc5fee5bf48c43530c4b587d052978629e5b4e5889f9cb4b, 0x22a12058069650421c0d8b8f64671478206faccd41296a2fd3f70a5a38120a62, 0x2da787cc87f4917f13a620df4aa3ae9a4d4c253f72f5c3a466aa3c68320945e0, 0, 0x3bdfcbe0e995898650d7fe1091fde181c376e3a1744cbcacf866efdfe216e9eb, 0, 0, 0, 0],
  [0x37c04b0e8b2fb5fe57240e3a1d1d7f804607f3ae1297830268a2fe3b5253c298, 0xc3653926df82b90228234aeb3d11d0f6a1c618fc5171884af66c1ecd7217bfd, 0x24aa52a1d6ab09bd19e29328e07c7377fc2d5a8e6eb6aa631a7f6f555b167af2, 0x36a70422d52518a01d631f371c3c353f23ed62a8075149acae9dbf7ce8901268, 0, 0x20e43ad780254f55cb5c85c6d9bd3246c79bb2ffe60c5da5149471dd34c439c2, 0, 0, 0, 0],
  [0x12eb20c0f1e3b41075d11e1377733bdaf59aec6f02287f6f6c3a1792f5893616, 0x123bf128c699d4b0b5cc14bc52f550d34093e9292c68a7d8e16db1f2c344a88, 0x15148787ba40ee98ebdc233e9896797e5505201f4e3982fa2357190b8627470b, 0x60a198d33df9234bf2b3f026272db5d854e161d9ef6659aab4eee5f49ef9b18, 0, 0x1f74cf1134498e469238df1707948656d9cffa48948b4f14bd6bdf1eef373cbb, 0, 0, 0, 0],
  [0x1c621dd39f4ef56e83d007dbbeab64589cc61bf7befdbea26a8fcf621dfb0209, 0x3b386fcd639f613a25cf21e004776804b8eb4e60c75c2882eaefc7da3e007fbb, 0x10f9822e4fc85b3706eb08bba4c51c3a22358c195f56cb367c3840b016567ccd, 0x1193379d0032f2a181bd525c79e283bb8f754fe622fde318870a817e0d6b717b, 0, 0x327594d09e3c9f3beecf2704b7017122a5e9b000e988250f4d0185d71e76987c, 0, 0, 0, 0],
  [0x34fd371d45e30d694e9aceb9895b4f954422a96fe87388e6870c89e882f2043f, 0xdc5da2e937787bfe843e4d0ded70d367fed5345bfcf8feab68a2cdf8d5d1bf2, 0x28c10fd78db8a1d2e9abfdd29ebffe9f552f6731949bedcadca44eb3218e292f, 0x491ca9814e536db972ed54472313bb1c2f569a012170b0dcb1a88809152dd23, 0, 0x32f90ede09e21322ffe53d6e7ef28c81c6461d48f5356ac12e0d9983582c331b, 0, 0, 0, 0],
  [0x178d4fae174ad48898b0d06e098e5cb68a4e935c651471f7c0ff7205953046cf, 0x20f9fb62e3c1bd199d69f93ef87b6686dc6272cccaf229ea83568e5bd1b196e0, 0xba37e8f1dd7ce116203f01f2e8942713c0e5f708b5a6e6aec12a35319980a6d, 0x23aad59c6776b510084c5b285086d8794f830ca0d403e732bbc5ef5224ace22, 0, 0x29dd24ddbfaba1c65bd6dd06ce01b7ef0646e4b50fdf9694f3a938cff28daa38, 0, 0, 0, 0],
  [0x3e29e02db7acf0b38b362ed996a8fbb0aa2c59b5ee61aebc7d4619e3443d8047, 0x2272f93b4e44566d3584b681b9e1df0737f45b42dd4a8955b40226948baada78, 0x21356d2d7ffb17876e69f1a87781a26f379249122cadfff72cd96ff0dcf584a2, 0x11f4e2e484492be6447f8e099e3d545b3e26772cf23a967eb501b20b6b590547, 0, 0x4b107404f322a51d13076a54c263ebe228d565439c0608c8c78b261c1d701c8, 0, 0, 0, 0],
  [0x919988ed62b9758051278a783035cdd1ddb3dae2752ebbaff3ffb6493e67ef, 0x372fc549086ed31fb252c8a4c6caacb37c5ba65ab08e812a1c601bf533e78a71, 0x11e593df6f46b3a74795954b09c28346bec7aa2649fc477e7e5e18eecebbbea4, 0x34b7fad302c2e77f215bccad4f38cb54ee4e8809c640fdd879a39f8e4d989ed3, 0, 0x454f4f83c47723a51f36125249958619f63f688e6db24e6db1e7dff6dc46463, 0, 0, 0, 0],
  [0x2117e401d3e13bac36cf67ba4c5e4087dcdb1a432d2a3c730bfc42a22713a394, 0x398367780c937f6977303af2f2482ac00a51a916ac21c7e6919045d82715c278, 0xf2bd06953eb05c9b7b0a878f73d6464fb08677587a9786aea68fb5b9a14f284, 0x20a9e189a03658e2a9413efa22e1c9ad7b9e41c5fbc5f8cd35e14871a53aa261, 0, 0x3db650651c48c6a08e7b328c54c0797642080292d854bf2a1ef04c434d029629, 0, 0, 0, 0],
  [0x3ea8913f98ebeb383b5b2f162a9530492ce9fd3d7646ab9dbb6757907bdfd724, 0x251238ec2e313b3cd43aa7e8ecedb1c09106c26375858d91deac0ac441cc2792, 0xb79b08ac0f0d1c9797ac11db6b0ec879a281ac9479e72d8be8bec5f71f3a0e7, 0xf679d29dfaf0a3d3259fa63f7cd16ff5fb023669c3d0ec2c186a1b90f914935, 0, 0xca14e802e4b7640bcfc3337b523587318291feb74986f63b56760282d47c70e, 0, 0, 0, 0],
  [0x34c7ed8d723956c67e76039bdd4827d83cfef1e70fce6b8877b96d32f0a1b89b, 0x239f941d81b947c2dc126db7747f54a7dec3d747dbad662161edfde0857f9a00, 0xf231af4fe8221f872fcb2e728f6b6e931a703204ff2d1ed94ab8914ad9c781, 0x1bbde13c8c2e93725775068bba562c493c557989db3a9a40040d65e7eaed5e0a, 0, 0x8bbd4f49e30b3d6c6d26a0526896254423b2eea0355f89b8dd00bd8a2c0df96, 0, 0, 0, 0],
  [0x3eb800206cdc066757c6d725ada8bf3f275c828857216967797d095e4f7c39a2, 0x3ad2e5d24e3999e553a4718e1dd4878230db7462182a47efaf41347a743e02df, 0x1274cdfea2005fbab87c3fac973b17ac74f1723f5903d731f70ab5683bd79e9c, 0x89236711623f241860f1f27e489e10fcddb3c51c8c685b0893edced549d1246, 0, 0x2f3fea2cdeed8949d34293f8c3eb55e7e19a6a367a8918c351ad793704e51d28, 0, 0, 0, 0],
  [0x2f7f60f5abb9d3f79d25dc740ba55920d510e2f28911f2e80e863a01eb23bd8e, 0x14c33a4ff9fbd09a049824fcdfcda55e936a99892c68c2a3582c56c301d68015, 0x278c21809d40f953656e555f4ea377094b2b07186c78aa39d14d8edeac6c3d63, 0x246db13adfc38a029c5ac4ff21d61034af6e7b5db473392b322d89d73f5047f8, 0, 0x1a63cc1bf4ae0e53564ab82df3eb6a13282331c53b091e110921afb3a0bc8915, 0, 0, 0, 0],
  [0x38012b92ee0e5f07f69a5bfba3e3630ce88133ac9d97ff8f6958f9f23bc5424, 0x154eeba8c7c1e69a7d7fa7315fce846bafc185076ff2e0d216474356171277d1, 0xf048cfb2a45269aefc51137454b9f0175117f3f2f951b21bf07311da889cfff, 0x14f59677ef28edd535464411144ab9b5d630cc13bc022add7373cac2956f9d0d, 0, 0x2e492ced815638672f0e032bbd1d8ba5f11c0f28594403ee8ed56748fc4c7a9b, 0, 0, 0, 0],
  [0x12e90612cab7467e9521b465f994d0ff22a93872a2334b81771c18d6591c976b, 0xd98a58d4559e667b85b8ce3caf3448730d4c1ecabab07be96ddc51539440538, 0xa04eab5b290256416a3d028994d182cb86d11dae796643a19af4ecffd1aac68, 0x1d5c0d71612f51210a7728467688af37e2ee943713a263cfd1f4d3554c22a693, 0, 0x30d8290bdeec5a3633607fcbf29e7b5e4302a3b4cb4bfafc897c916f15493be7, 0, 0, 0, 0],
  [0x3a4cf623912214bc4b88ab6ebe66abaead76c68ed1037dd62fd83a5e73f89722, 0x774b1cff13fa9c4682489c71dd00f22b15320d93dfc2700ea4ae46a5718c72, 0x1a483486a08c218922eef4205a64ff299a4e91534aad6e251b392121936f7865, 0x8ee749a865d48236ffac5c24143c6b016fcbad5d77d30c325590e49c9d62f26, 0, 0x221e536aa6fe1246445cd7b679b51c49837941c188a7a6868d98f4b21513271a, 0, 0, 0, 0],
  [0x3035aa0368e48e8b88656ff400c1b03806de26e3f2d4642e6395e9bf21117ef0, 0xbcc0549c42c600f4bcd34f5b76edf7e657fa1b9167c07a8459f5893f266e22c, 0x36c1ea9e01330b425961336f6707017bd722ba12abcb7dca987e40fc045e8cf3, 0x2155098069e282674dabf849adb0319c96b31e6e0c5067832459859620fae69c, 0, 0x5b3919d8bf63b4fc8bba657e67c5d55c70f398d541fdadfd4a44c06fd073df, 0, 0, 0, 0],
  [0x3f5142c9e8af8ea642c20826c7e727727034b9b0a4c0ba7a554dab4740a3c6cf, 0x9fb2cb426213adfb49d7fc591bae5307b0ff15e4d011f719cdea4d262d69699, 0x2c14edb01c6a76dd51520e3df03ee6422ce67ec749fc79995039ac8e0e054cbf, 0x2aea200faa8c6c47fa09dbf7a77251325e3130c2febd5415127a6bee0385d339, 0, 0x112fe83cb692c5dd9bf9ed6525fa9e2bb5827eb9aeed71afc23a2e0743da77ec, 0, 0, 0, 0],
  [0x1f55b7f8c14fc4a8c2a04b056ceae5bdf27b1d0d32acf07ead926eb2509e5b43, 0x1d42fde71833be672d1bf1cfc60df48658951a6e35b24daa876ee10ee61e269, 0x1d12baba537cf6d95aa574ca0d21ee302c700fc30b5374aeaf4900003d4c70bb, 0x1e1b3b446bef101b27b3b8b934cb2e0db8140e76fbf7ca4d8714cd2f9bc96ea7, 0, 0x745b086febee1d34015bfd4124f507e69658117d1d8db7c3e36c37d990efb8e, 0, 0, 0, 0],
  [0x1440f0216b8d4c5883905636295c283d3039c791e32afd7ec04f7c312f43b8b7, 0x1ceffd8ef75739eb5b474b50755f74cdd6208f39d0d542720237a40d1f657cc7, 0x24cc22fca8116765493c2e7245d93f61b063d5f09a4f2acdbb27fdc78a9e5800, 0x1bb6d4736a56872ef4f39953ddaf1da0d3209b74611859f21bbdd73def4ef3e2, 0, 0x120ac5f386e1d44cfd1fbd717741dff04b141b42dca07715ec32997192f59fc6, 0, 0, 0, 0],
  [0x19b543cc2bbf3b6d4a5f9de2e4cb85fed093d48a283fea4ef1405464080d11ad, 0x7d6b63204f5603bef1a5db7458e22d61599af83d8960a3296f8c48fa6045ba1, 0x3bc7e1de279f8f6134d2bcb3c4cef32bb086fc1d7d5adb4a86b6721ad142a235, 0x321a371b2fb658d04b183d3f5604d45a769979c33b4148672515547cd88421ba, 0, 0x32bac6489cd13113622525b98fcdbd18add111d2aaa7fbd8762213043163ba3f, 0, 0, 0, 0],
  [0x3ebd3d7e0ea0ff89d8cf19b14a03b6c049c4f26d6e27cc5eaa4fabdf74f3fccf, 0x102fe26179c4c042f6d53e3b35b9c96fe03d85f3adcc7ed3ffa0eca4869ecea7, 0x246ad79112b4b7ade2b996db80db1b2857f34dea913a55cd9c4ca0b9d00d4a38, 0x311ad1ba89e3eb8dbc0c38abb1512f60e8e16700eabca292f7c6f65255d70276, 0, 0x28b89e9b8be3ce22f796ea984ef447c41112960207edb5ed54adf4af2201cd4f, 0, 0, 0, 0],
  [0x3dee2292e0799f13fb15160ca9cd2d536f152475e6c2b0f975b87b788b1bc86f, 0x4acc6be3c516facf7847bb48e17513cd998d30ca02e02b4e6122ac484f5b39d, 0x3c5d3d0374fa4e93d54278bbce669d9b9bbc1f399b8e7101c22e6266440dadd5, 0x2a6861b9a96527bf604bee4d30dcb94b405d0257be09d1372693fc50cfc5018e, 0, 0x308e848308ff17c35b4ba64b9d96a7d5c30b2685e4007d84f0670bf33d699efe, 0, 0, 0, 0],
  [0x3ddc2602361790f9edb41d2ecba5a33a58095e73b31f2e4869a0fa0803dc4843, 0x2350a7f5001193da1b879f9cb5b9bb172b1850bd5b3a0a14559d859b845787b0, 0x2afae2384e8bd925c91c3ce0b5f126bcf3f62c56cbba83fd3cf0bd0078a1f674, 0x121058f30b82f9321420979fe64d19de1dd6dc20362e65f2f48dc43dd6b6b9e0, 0, 0x2301141bcd766f067c44983055d0ac2b73e3daa55189c2e7352e1e7d560d65ae, 0, 0, 0, 0],
  [0x392dc9cf65a4f53943553b33fd0bf5f003ba120db1b3cdaa19d26796351313c4, 0x271ab3c12581deceef083aae92d062718ae029ed24971f182ba01a2af8d440c7, 0x1ad2679c996a4d0f27d65d8b5d4f466e9340d5cc9f34be201e2cd7b7438084ef, 0x1db021aaebcdba41daa565dc070906f38d6f54b61728ec0206f9245c2dd70211, 0, 0x381fa00805553f4f8eb9770844b434dbcaee5c879c153ce1ff1b2c8c78bba21, 0, 0, 0, 0],
  [0x297f6049ce4125970befb0c86d78f59a4dfa839ba7609ed2edfd113769eb7b54, 0x1225d727f8a7354a208ff4aac26815ea992b46794bf2579b192e346e7b19fc90, 0x34aedca30ecbb19fd2395321c08257342932c039fe155fa67b4720d3cbe43a43, 0x2fa427a7ac21e5cbc7f066e15da5e69cdd6fb67bd5eea9a41f928eb1fca4168f, 0, 0x3b49c6b2cfd445d48b5374e540822faa5ed04289291d7206c3b1f468f67e951f, 0, 0, 0, 0],
  [0x2ecab849ef4e687e6079beb9f8da0585a491a2bedf9757435077ff76532f7d2c, 0x13ae7d84c5b0d25ead419e2d93d4f273821a5c34712c56c40cff622e6e92d670, 0x3473c17fd92753f37215de53fd695dd74da24a596d019c224f4ad24e4078b138, 0x1d1cadf510043ba0970b5ad7920e49c3de8603407ea4d88095c42eac9e36fbde, 0, 0x2839a238736d06c4e510edd0b6048f5d2f7b89c8a1a9cbf6c2b6104c26890a66, 0, 0, 0, 0],
  [0x386449015784a7a63799f15bbcd75890cfaa0775c46e4ddf38a595518537195d, 0x75f2532470fa4ed5afc51231ff96fd0633044a5afe5289adb721f44dd0a69a2, 0x3900d6ee2b63fe1149f56b0903d465cd6e15f9923296333be543bd317b003eab, 0x26edcfa822b615a11723a66d1630c5492c226e91af1f88de8d6fa578ae392690, 0, 0x9a7d95da055cce3eefa46526070e06abfda2ea60a924a27d921ce1fbcb9c5d8, 0, 0, 0, 0],
  [0x3f3b7dc3e41d56453f76fb32485664f862307479e939523af1ec9937c3c00dd0, 0xd7b5b81f7511cd8dfaa48ecf0c7fcae71ff938d4680d70e03427f5a276d3404, 0xcab9098df7dc9db3ab92a5ca49e988bafdcce60db0811454c79facd95ccccbe, 0x37d30015313edf73ea746b60e680d02230a57da6a08a65c9ef3ba0b2aefff0ad, 0, 0x1ca4e5179af101e8e7b6259d38c349e70cec04f09b28d69af0b25d2fa25e5216, 0, 0, 0, 0],
  [0x31ea2683e7f76dbde580f7c5cc142fa4e75b233c29b2c7b7c7eee7f139dfc0fc, 0x1729e30e44cb2ba8321960e16c6188d4211ee27c35538941e84df6ee4e369b7e, 0x1689a4cddf7eea3d5247e4698ba39af640f221045e2af5672e15f7e53d6fb500, 0x5ea58b293005032d0cc5f5e5a5b0033ca7032846bbb17c3b1a21fa507bf748d, 0, 0x34845a72e47932b7ba33fe8c17c5802f0ceb05303dc14e92f11af6fab5eb953, 0, 0, 0, 0],
  [0x21deea1e4af1062ba93efe0352efdc19ae955b26026863533a2e46316d1347f1, 0x38909eff112cd2b8327c58905a2dc4b4a7df017febde309f081a9d61a4c7f1ac, 0x1f004e0e09b1f7c46c0a6229bd3807f2eca29158c109bd385cd6ab1503fe2722, 0x39f0a73316e8a42aaf35db5faab4d3fc7466781d6f883da65b7e4e7ecedee40b, 0, 0x121fc619b3e7fcda24ff8bd0cee17c9e2fafee35a0484cdb8cb50add6420dd1e, 0, 0, 0, 0],
  [0x1b100273eabdc39ab6b930de7a1f07657123ee48ee9886a1bcd87f091f2f4a78, 0x191f6dca9164be543fc9a191256722a7e7e8118beab9d4d7df39f81373f98c0d, 0x982ee25a6733f735d7c49c2b46feb68d5d5aee6d9e067af2787cb7818ec011b, 0xcefa8ec02c64d03dd7dd0853d4554a022faa2b0b39af7f048ceb50f1ff89520, 0, 0x2d35f8dd4cdcc48ea944d1cf7ec1206bcafe2f050e71456bc2722f62e1105e31, 0, 0, 0, 0],
  [0x64f0b0fdee0b7c330e41fdfd7c797fc79b5a3a591e877fc82fb4bd25e0f41f2, 0x2f674360f34ea6500926855af230c649879be05e66409b6774e2595f0bced7d7, 0x8a355cf7008dbfa0ae1d405bcf83cab9402c6ee4a3bee59c6b3d5b875b90ffa, 0x2778bd19d25ed921d727d3e1f2d5d0d45d67ae017e89356bf91992e139151923, 0, 0x13d6939fe18f1f24792c2ccf0b84920f41b5ec0e3ff0fc50d2a8324875322499, 0, 0, 0, 0],
  [0x21a9e67035400889cfada8d7acc1da1e13cea889a0636bb7958a2e3f6af8b1b7, 0x9339f5b2003ce393bafdb724e85f0febba0b0eedddc8cda43559a07695d7328, 0x1bd626301a8e3a0d9a27fc00e1fb4334c24947ffe568253d8bb787f18411f3c5, 0x1a5b001571f0638b0ef20c5163e8675711fe5903f5e8a7d79487f9d305b6399f, 0, 0xce83675475d878e5953296b22c494d10f3df8dcb572730664a2b7ac4a6c4bba, 0, 0, 0, 0],
  [0x25c7871f4c4576938d70ac54d46a9e4e6efbca43eb19ffb1a86c32998a1286fb, 0x1d8b9e03b51ebb979c97b68fda099271b8f3b300d3e9a4b60565937a711fb990, 0x113370e86eefea87e946241702ae3758cd8eb1a252d588adc43cb8d073d31c19, 0x345ea54c9c8a808fb5938ead6ca43a762929a6e6333a1960a7a741c6dac83aaf, 0, 0x28302d1606f120f62ff3bd65f4b60b2346ada4f5381e78325d6bed17af9b8066, 0, 0, 0, 0],
  [0x2cc941896ed6f06911902e857eceabbcf711c2fb1200fd5df98cd69b1703f4f5, 0x38db9cc9501648ed92627e3c33bac18a8e9bfa57824efd41e676b7f95e767838, 0x2d0914d3444b9ae347127d1377dc3930ef58cdca1d31f25bd6a6de58193f5a24, 0x3a567004ffe845f08f30a981693f303d8ede03d655fba533488d370df882cf97, 0, 0x19eddcb22297f55ba53ef595456e5fdf099b3e1875f51633aa87b86ae7b084f8, 0, 0, 0, 0],
  [0x11b5693346d8e1810d79d32cce76fe9fc5f213c8a6709ef8a6eeff2feb16050f, 0x127cf657ca9f11a7bf621824e49d0420add9d6adcc5bc59fefb02302f713981, 0x31d90b66a7084654e8b838c17615524f21ac65330356c10823f21a239e632735, 0xd4df5c9b754cc38f581df66cded8607b2f10d7e6715a46211d2f3a82b2f5c7b, 0, 0x2ee3cd9d52190a26a7d04a310fdb8587f8efb4a424546e821950250417ecf902, 0, 0, 0, 0],
  [0x346e5460a55cc6a721613f1345518c3d00bcd89273ba06bd3df9609befa81383, 0x4ac39f1397021b86039cba9626438978e2020c460372788f6fd5d133eb69a6d, 0x89cfb94b6dc668ca2fbe01b40d0a4e7cfb5630ec69c093f0034a8b1ace8296e, 0x7e12162e26fae9d7b431bb8798f4b91b051c18e39fcf7a84e4004ab804436ed, 0, 0x1de433921a32f902d46d37239dfcfac9fcbece8edffa1ad97dc94c47d4765a76, 0, 0, 0, 0],
  [0x10dd8e42f4ff08769dc6aabea4b34c02e1b905c6ee6557eab759945014c71ed9, 0x2f2bfb1dd3c305ddaf00efe74294ccf3c223d8e262ce7614c816a8466ee0b34a, 0x16a887630643614248e89253561b6c63b6df3a8fbf35cf7fcbf088cb0d615577, 0x3b75be455de2b8b7688c06f92f525dcf276af2a53c95585ccabe38d8065941ec, 0, 0x10be95128ead27dc5d00388737af133fce0eeaf6f7adcbc012cf3cb6d0fd4227, 0, 0, 0, 0],
  [0xa5b598f4be87226728a56363119ad03d08d7851fe5da844d9ad0591bd615dd3, 0x10193982cb9a091c98b04eea4c040bc9c34eb1a6b8e7c0ac83728a5200686deb, 0x11504c4879a67226702f3e94c2839137da6cfb88bf4087ce693ef1e9908c16d4, 0x2a74ef637a5f5459827955caaea108a47edeb1fd2979ad86ca95488f0c796b5f, 0, 0x1ee8eae3117965fcbe80562248ea16c57f26121a3883d7aaa04a376350cc7819, 0, 0, 0, 0],
  [0x1c48c363fa57926a623e992d71c14638031d2a2ea1c6ac0b67ba904a682ea51f, 0x2b0e341f644fc63ea8abd31d6fa88e8d81287a85708a9cf9733f2874aeee3ef0, 0x1f8eb64a3f2429d8b6f8b476138fe7fb609dc0dfb70cdc68f114d205f9679027, 0x1137651a8b6d56f4643256077d6dfff2cc07ca7745e58734929b81111de4175f, 0, 0x31024ca04278be529dc6951439219ab6e8594bf31b7b5f67ca35cce48a3aff, 0, 0, 0, 0],
  [0x2ddc8cde4fb108065cdb56d9407de399cca3215803334852478fa927c21fa538, 0x389e1b96710fafeda789bed36ef033ff8d6e4ca1fde6e967bf0587a4d3e0da4f, 0x380cf439a9f69a7ed41a77649b5af35aff21a9a76b4ba237ba66826ab58e7d96, 0x29b5bd2f79585711d2bc06a41c5aca41cdc6f3c7613234fce58b39011f4a55d9, 0, 0x108d6cb5ea5d23d493025f2f3c6cc291bd1d4a37c68df2c3142250f846ffba09, 0, 0, 0, 0],
  [0x13156fc2f811b4818af9a808bb760c43d51244868b67d6d9c77ddd232180dea4, 0x3e37a910e225fe26e222dfbe1c2ff391b13964cc78808a984ce689a7fdaa2328, 0x3902c6e8a4e175e5ed038081305a7fe804015a99911a855a71f766c371106d0b, 0x34dc61fa4e017535c534083403bb9e4654913533014d8c54370e8e75e5e7e719, 0, 0x327c19b9546348620100e8dd31e4f9f26686be6e30e6cba261f659e63fb7d782, 0, 0, 0, 0],
  [0x1a1da3d65bd5f5366c70194840a02bf76d2485e9b8f8237f804e2d738fc02e87, 0x4d000e55563497955d9e83c98ed6770857e38e0cae9a69d0ab6572cc6252466, 0x1a160b34a0acca9eaee9b3a7d4a207b6f5971a200b752a857aaefaaf0b66f8ea, 0x23c64faf8fa44a449513e87a4a0fb1af001069d4dc9050614c92719da27dba1b, 0, 0x379f26efeab541c09670a8c44358f1909f56a22b035cee2bd7845e859050de11, 0, 0, 0, 0],
  [0x20d5e7ea001ec6fee08fc92d7986ac4516d558a0e9e6e7fedad007b359388ee8, 0x2562f8f4bd83638f9d33315ed7ef7d652872a59cb26ff3f07d9132922ad4161b, 0x3639ec69e25f0b9332bfc001813d84b83460816e5b0e64fce4b6baca6306c513, 0x38e9433d118d1e0afe9c864be4ba0abb5299897085199a9b0fd6e31d3cd7153e, 0, 0xff40db48f0ace93b9e360df3edfa7a1026d79727744253c5813d9feb1ad785b, 0, 0, 0, 0],
  [0x821bdcb8ed54d0e4b5b2d8e0de9ceb5670d36a9e831bc96fceef76df791d47e, 0x31e13762d7078a7075f23f29c30f6b9532f4cf313feeb37e259f71e0e6d0915e, 0x6ba2fcfac57590120288f952cdb8c218ace1d91260a09fb13af6dcacce8623b, 0x2b4562d8db967a69f8482c38f48401a1a60498e3c52f03212fc81f12c2725e4b, 0, 0x25acd692e1cbb598100f05d1bd0e0387e66058685bcd3f7a6d1b9790a6690d2b, 0, 0, 0, 0],
  [0x3555afa8b7528b3bc706b1eb8629ab901d16dea19c4a57f7f9941a1b4c5ae2eb, 0x30b6787123c50abb9b3af2b995443d55224a2afa4b1aa9423bd5202c9e8dc4d2, 0x3bed762b007c6de7d21c8da44406154dc5ce1549c24c2d6bd804bb1aa78badcf, 0x3ee182a2b232807b54fe51e2917a45992257f772a5bff2d7f64f3176e259bf34, 0, 0xe0248d38c1d6dd5db12ec146ad7d55191e3183168436dc7d089b3e2f27d8a5b, 0, 0, 0, 0],
  [0x2a30b12fb8b3000a6ca570652af04e6c052215cb9b86a8d33230f3f157054606, 0x4c8b0ddfbca982002b536228e1d326624b96ed9e208d13d6bb778a45d4ca00, 0x19b4d1c114a0abe254902f85ae8b765b1ecd6708b802a1d0bd236818ee64eb8b, 0x34bded5201b511f86ca89206916e828d53675a60bf61b8e18e06db3e7592e3d3, 0, 0x3b9a7c4f87e4f613543ee6c94222889cc5cd402659c553ff4ee58e5d9ee8bf54, 0, 0, 0, 0],
  [0x2d92ad4d4ea03f03dbad62b1bc611f7673843718fee728e9869d4be417b7d29f, 0x19c043d5104976b1475683da64fc8daceb31a377e1a676693be68a55530edac8, 0xf8ea67b9f0f2ca9961fec7927797638e657d61d408a9cda99f60fa1aee3df6d, 0x1488dfd519c7ba1196106d3188b9a34d5dcf011a100571304182340d802f4c33, 0, 0x3ab905d6f42c7ed44f32056c88a2705b3bf36409d26495739d4ceec41cad63f6, 0, 0, 0, 0],
  [0x3748d975b118118719925e1df5f85c3cca5e13683e76b98f829d53d564849809, 0x2f86d81cfc6fc90cab5dfce03be4d1c543f78aa5598e61a63a5638d9523c87ef, 0x242261b8b5257d78c205279c7f22caf657e73fc8cb49af2cb0798bf73e02e671, 0x1d3b69700e333c77048746fd5aa01352372840e3ba425a89417085c7d9e99d06, 0, 0x2b0c338bf4fbbddfc36d2a7a12fb62ef599455e002fd1eff5bd6afd569d50300, 0, 0, 0, 0],
  [0x2d4af5ca10eacb9aecb91baafb4d3beb0564613bacc961a8e41f25ec493eec0, 0xbe4aac151ab79ec117a270b9b2c2d419145164b33c4a69bbf6581ecd806ac4b, 0x3a3307b64ae81b06902651720ccab4c6a9d4a3bf33e3c3bb73bca9d79ae9877e, 0x3e9f453a602c3e7402803942fabb2467074246424ecb45fdb8144129b0ffa574, 0, 0x1193ef459884aa0c2d3c1ac15db72eeeb809830f66c1e04a9854a41b9b74d772, 0, 0, 0, 0],
  [0x3738e55e5cf5815e5fa9006c4c49441cf88d26bd798db2ffddc8c42a5abb460e, 0x36acdba58d47243f50c74dc33caaf0f08d29219e42d66ef1b08317b0ae24ddab, 0x27d7c21a4bdfbec762f98ab04d06c437cda16d14a89c64646032142b11dc97ec, 0x3450f4c07eba68bf51f5b4652426ef4a23db3d7ec9f730f12e59437c178dd268, 0, 0x2e3a4838f2ae2885143796ef975caf7e928a7df8782e51b5497b5b8b28dee948, 0, 0, 0, 0],
  [0x1cc86b88a4cebb11d63268645cf9b784933b878795e09204f53d8ba6b4805cc3, 0x2c8aecad004c66c6a65419319e27c897999e24e049daeb59cca5ed3cacc7220, 0x3f5bc6841d83ec19b14c53bb7957b033bb1151c9d0f3503fd60f1c0179a0aa77, 0x1038fb7b3295e1c78df41993f4db932558f4247c01039fd536cf36d74d75e91d, 0, 0xe0ae69acaeba16d7d58ffc57e7696fa22019bd68c875cbab983f9f8d38d0296, 0, 0, 0, 0],
  [0x154866f4b2ab973a5ba4c35d72a79cb7efb0f82be73f4e0229806881cfc2a739, 0x1cb7f7ccb4de2b795f1db401cf4ed6ad4a9199d5f78c021925c663da662787d9, 0x17552e279056463753d55bc339055204b5685e167b0d7f518961e7b392bcffa4, 0x2c97820b8979bbf7ee062ad3543c4077308c4c4056b513c99cb11d9df564a0ca, 0, 0x228184889518c8e1bad1629f6009e3edec9f714b42de74de59143c7ceeb4126, 0, 0, 0, 0],
  [0x3576c6a0cf3f6e4ddab7159d58ad2501c38b45909ab5a0906e7ef1d04f0f90, 0x10d301eceed5e5c27347b0744c4741d1c4d6c86b59353acd690b80d0b5675c1, 0x3ace45395767b8b81c72bb694da30e000f7baa25a844362311abd841f7968c7a, 0x30c085b1d8858376e78e03e82d8dd7e4d93460ca1f7e365ac51bd8a8f28da5b6, 0, 0xb23a5b8acd27c6e17a5e5740b483a7633c107e561111d12b07866024e8c43a6, 0, 0, 0, 0],
  [0x77d33c0091c0c049feaaca1dc39ec70f6fa4acfd0af8293cb4120192507b168, 0x32053f24db41755da1f4064a5dee6c3f3f2ec7cdacbb7c9a7c5a3eb158561034, 0x28e30b6f5f38ba69b3d5ef72b7286379a149da3607311768b558ca5e144b505d, 0x3c9ee1cddd870355d2debc1ce345d0e1b733ac497474ad0a27485cac17c2b3cc, 0, 0x2a658e4cca35ecc6cbd407d4ad004f8f201fc709ca8a2d6de65cf3c03254d586, 0, 0, 0, 0],
  [0x2e3f313a90eb5d334bbf6f75cbf060887372ee3cd3949394f817dbc50ad3c87, 0x2bcd3569ad1e59c07fe6de874ef953c1ea7bf2aeb63d77b3df8d01517e2571c9, 0x38764981dadfe7c3343601fe184f334d0efb28f8180c5068ffce5be71a2acd59, 0x2a8f38f2ad065d0635e1d5b6007d3f9f08ba0c9228fdda1ce2a8e4fa17695b5, 0, 0xc7cbd7df8033cc16a43a4a7bb15958fe68330c1e8465da836fc23ec10aa3ba6, 0, 0, 0, 0],
  [0x173dc84672fa04bab8d625c038d739b4cc68c0e932ca7f03a44fae2b1b8a0201, 0x209db6f3fe78da9b58cbb7258fab975a478427a647e216b5bdfecb6444bad680, 0xd5b6f5303bf6993428cdf47230c423ef91de8ef6060bb8d0d246e58e066a439, 0x3c7efb7a77d7d90dedb6c835b651474a914de3a5bde2b6d70f690845c3700f20, 0, 0x1a0d5fca1f3877db4fc2371130ec74c48d420db7b1f7a5e081c67febc5e9f68f, 0, 0, 0, 0],
  [0xb6d0e7d8e91f7b3710ee9fd9f85dc43073fad8bec301b60abcc77ccd8a2bf1a, 0x10c4ea0eb3971694920f1b304c00035a917ad0484cc6f751cc75e1b6e809aa51, 0xfdfe235becfd80fa9e6b15cf0659b0913dc344ab695eec2e8089781d74ec9c5, 0xb93bce6ad7c53af8dd86898d993306493fe36a5900f8e71adee40942c092ce0, 0, 0xbdad9c136a4b0ead58bb11f4f31e1528622f25e1ef3c640921682cd65efee17, 0, 0, 0, 0],
  [0x1e1dbdc6afa96e8ab5e705b85de078d11a3fe4e7462d7547068adafcc35f6ab4, 0x28e564f79a9b34f5c708d9af6ba1942296deaa72d0245542a1a64fe611fa7646, 0x17dfbcb43f8fdd72f49fb8c351ab8e1f294972e004a11f061b52082874480844, 0x32d0d38f2e33371d1254179c2a1522bddc8f1f9692a66e26ea1968c6ef897f03, 0, 0xf4b47df7adc13340462db596e269ae4c9a1261320f694b696901f81d55f4778, 0, 0, 0, 0],
  [0x2716c73ea5a5d2aa12b4414434ca088856b7da1976e711e949b12dfd6712f2a2, 0x2cf5c008a4797da6e3ddfd4904f06bed0adf1b720ce2302c9d3f0d531e6c3b6, 0x207f872e3b6b0fbb4bab2934db0189cc672bdcdb0a5979a4cb4092217ba1dae7, 0x3b9fa0b83a0566c422393907713e3105c0d15b62eb251c1fca74dee0263451e8, 0, 0x27bf28ab8799adf481b92a6270118020b1dfbe278478bdfa945885541c2d7511, 0, 0, 0, 0],
  [0x99de2bc8eb9c34365cbf02da5dab12fb19be97b5e433939bcfc6e43f31e64ad, 0xdcb9509118814b7c703410bb490522ccc2487acc93c4df4dd1aedad1226206a, 0x2ce189045ba236bbb359b79f2caecd6c21fa255f2b72b8c7fc0eea84cfaa5556, 0x340573862d867a6753ff3c5e4a0d7247a082e3cd47e6dd4aa1f6e59c74306602, 0, 0x1fb8ea52e410fe36527ac93f5b0c8c03350f73979906e804bf74e7512fac0a68, 0, 0, 0, 0],
  [0x102d0147256181588302a97950929907531d17dc86947abaff5c97ec06bd41fa, 0xfb7e83f907885bc3648e9b08f64e8d169e65c0cabc9bcb856108d5b7ad7c045, 0x335319418ba8ca2bd0cba5130cccd0914bafd3c721f8f1cc1e069e0a1be125d1, 0x36b2f08d4060f1e435e35b3889cdd6ac14932f675d66e8ede3995600b067a1ee, 0, 0x2f7660654bf8d340f136fd0978b1636d5ad81a2677299c1f7d1c97c086ac0c8a, 0, 0, 0, 0],
  [0x37695ab1e75982415ef305fadbf4bf40730ace246132858637877427980f3602, 0x24048a4d077e40ee5eba90c3b0c10a9f7a12b5d0c8223afb9eddfcf0bc14c186, 0x6feef515a05b0a264fd6542f30b9f8298fb905a47a1819acd22fc6a4a5944d6, 0x1e5ed84ab6cfba848ea57c0cd29a4c63ba9afb09798df7eeaa341eb64fd25c87, 0, 0xcaf0107b03889c807dabb9b2922a1eb531d875ed485ee60b26c88cc082f827d, 0, 0, 0, 0],
  [0x45587513fd1ec55b25119391a022fda6d9b9de007ef66e3251a309ca6c67813, 0x10fe8cf4fa5cde44078dfde176f6e13d377b7df6801adb65fad64fa7537e9da5, 0x313fb79dff1c5c7e46e0ab5dcee92e8158237a085b623fec6ede152aba1a07c5, 0x29a0fe45a0dd941d99e08d83ae354557e97738d45859be0cfcfeb431c8c24e84, 0, 0x2782789b0b03d0ce8925e0f4fb3f6038863fb266efbfa2d1c4a403b8dc7a9c01, 0, 0, 0, 0],
  [0x2f79fa7be155f3c9fc1c52c142ad6acfba135e60a9eed3b75b18a9b390e2142, 0x3a214852105cee1aa2120113596fc08c95ef7b27a11d29607f7d584d35111cec, 0x24416ed2b44b29533b2ed13314187cee036671d5a7327883e1bedca296a65e2, 0x1a7b7f7ed424809916cfbbf1e045dfb9e4efd803fea0c19d1643a99326ac3c3c, 0, 0x27748e1b1ca12c1e61d1bca06d4e9bab2c520bccf6ea73ef4f243d72c17e1078, 0, 0, 0, 0],
  [0, 0, 0, 0, 0, 0, 0, 0, 0, 0]]

/-- 6 times (-1, 2): the last addition. -/
def six1 : List (List Nat) := [
  [0x2f79fa7be155f3c9fc1c52c142ad6acfba135e60a9eed3b75b18a9b390e2142, 0x3a214852105cee1aa2120113596fc08c95ef7b27a11d29607f7d584d35111cec, 0x24416ed2b44b29533b2ed13314187cee036671d5a7327883e1bedca296a65e2, 0x1a7b7f7ed424809916cfbbf1e045dfb9e4efd803fea0c19d1643a99326ac3c3c, 0x196553f95f31973214042b5f284f410a2a80d8539c8f68f36f9d347004d45410, 0x1ef8fad5f2da8feca4d3053219ee8e772fb368b708a3f4f6640354785096fe3b, 0x1cf2b69afe0d844af534532ebdce772ab20eff3df5f369794729598a08bb2d20, 0x1ff43806f52721ccd148b1199d9d4aef24be2fefc33903cdf3b23bb755598e8e, 0, 0],
  [0, 0, 0x5076391b23ae1f01fa981fb205cb99f433c8d8fdb674b8436e77dd4f3c624eb, 0x250aa777e538185183d552f0ee4025670bfe94c704509cedc67bd2c943571eae, 0, 0, 0, 0, 0, 0]]

/-- -1000 times (-1, 2): the windows. -/
def thousand0 : List (List Nat) := [
  [0x1c0000000000000000000000000000000efee2ee4411acfc1303c567b0000003, 0x2b00000000000000000000000000000017076ec9563fb75e8aea5cdf3bfffffc, 0, 0, 1000, 0x12f70d1d0c150a49bba0c3ebe04a0bb79fd5e0f0e71253b55efb470887241987, 0, 0, 0, 0],
  [0xa7f416a35e197e3ef0a652859c84173eaf2e5c95ec4af4c496ccb93fede74d6, 0xa5db63c2b4ee0870c405b43c9d9d6e77d6ae0c74bd4049495365f3b362acfc7, 0x1c0000000000000000000000000000000efee2ee4411acfc1303c567b0000003, 0x2b00000000000000000000000000000017076ec9563fb75e8aea5cdf3bfffffc, 125, 0x8b25246d3fbe9d9cdf87b7d874d669f43a3aef13d0d0890d63d63f737e0e45f, 0, 0, 0, 0],
  [0x259e5325a1fa5ec1c82994b9ee91c141becddc7b3681c85328e90977f222391d, 0x14b331cb154a896abac2874c6c4bce94561baf886f2f7cd0a02734e1b00c1a78, 0x112b0e671b1e9650949aa9f9b5516821964a197eeb39dcf727f9cb97b24ae9dd, 0x8f40f2024ed584e4a0233530b8b363afae471142a0ae197cb20574ace04a93e, 15, 0x384654b3679c42db85894fe45864eeadabe949cc5ab849a3fe2fb6f6b15bda19, 0, 0, 0, 0],
  [0x28332094a1d0f980116f38412aa74c064baea3e6a2fcc494a5992439693e9c5e, 0x53bf6bf19854711cc9cf8294b7e9bd0a92b6ece04ffeeee56b1f2463a7e622, 0x16ea31c98e1b58e8a733d7d978fb14991775ed8b3741bed858781403502acdb7, 0x38b7411eb457ab4333dc45b85adbf97b4c613d2b0c697435921ac63c0f52384e, 1, 0x320b9c5d4d8a50d2302ece85bb9731bfc97f40e7135d0d1185c06f6567f33c3f, 0, 0, 0, 0],
  [0x2138dec9d478796ed51797e095f7333bc0e13e4b347b9f9e8008f2698945e3ce, 0x15036e0026cb3247cac264892dcdccecf5f8ed588534dc80431c219a048e0b60, 0x32f4bfc982d9d8b8755262e4c37dc2d1b2b4cfd7a191f1542ef203ccb562091d, 0x1025e1933cea8d4afea23898c68679d997989dd1dbc4b6e90aaac0f2adcd46af, 0, 0xf2246a0460747e778224e33cd3483c13a5fe46d33b9cc0f453ec0b3b2090d83, 0, 0, 0, 0],
  [0x1f7867fbf8ba29771268a7ee1915a2fcafe5fda4b5f7c321d88066c30ab72815, 0x30f57754008e27fe58d42fa2d3a4c1561046b07645ff5a1cf4a292c9984d166b, 0x3b975bae2b9059299786144527e8ba8f140854397eb74256e14a9edd9beebf14, 0x345651f2a7cad4d65e50388ce30c8accdb0bf030adf67bd2017918c549ae75c5, 0, 0x38761856281aed82f1e06e93597369f22ab82c9148dd33e8664eebaa8a98655f, 0, 0, 0, 0],
  [0x29fae509ddaa173033eab1e9bc38fd8980ede4f5e1a56e5d96c940e6ae3a2cff, 0xecca5fbcbf7fcce23a0937c06912d4a03e8bdbc13d22e957fc56e45619765b7, 0x2f305d5c7c6ed264c98384f19d19d818c0e8e76c81f55611420997cd1ab80657, 0x231e3dd1e20dd82d3db2cd9aa9ccc5069c6a84938f53ad0086eb4ebd80725f65, 0, 0x36496968453be26f8302a7360921943f8e51fed926f4f0d5cf7083480cbcd6e0, 0, 0, 0, 0],
  [0x16dc2168a0d326fd416a3043ff4756d9ee6bd72e2c5e3f50e478803134fb5cf, 0x34bc35c9ea1e4aa198e3bd4ed63c0f790f71ab84be1a4756690a78c155477589, 0x2da14f8b0df801ef0f59a47e16c5ca4f86e6ac12aee2d19a2705b59a464b7ffb, 0x1ea5dcfddcc5d3b8804ff17e1d47a9a972cce38377f009f241f562bfd841323d, 0, 0x29463dfdaa96b47998c8a1367f422841aa5b764cadd7b25a4b781e683c6b12b9, 0, 0, 0, 0],
  [0xadece9b94a0141da7378b261047c0ca24b1c1ef05e2055d9ace940d47867319, 0x2d599dd661fbe1d728439b139c0d83b74e9f3e6986e68f7480545d4ec4d24c97, 0x362682ed2ff764b72c7fb1000205a79c6d538ecc8fb58ee8eb5a03622d571e53, 0x24929f27066a841a2cbc466e187c946b8f210a81228c61e9a7b4a929a44478f4, 0, 0x1fed61a4056e090f282ef39423047ad7d23435de7084289748add4f2654882f3, 0, 0, 0, 0],
  [0x7924f429e6518fa218e3b2f7e145a1a4249c683df9a383b64f103dadc3934f6, 0x365ce95b3472ef4180a0fad6c13c938386a4c75726e2a90f7ca7de2df7024b15, 0x33d6c48a787abf6be9aca3b32c5a110cff1e7251dd1bf43f12368238b1119c43, 0x40fc9c9f45ea0c862892b957cfdc775ee223e3b6fddf79f3cb921e2e8875349, 0, 0xa7fe045dc6febb49b93e0a5c262a1e4af20f5d051f54846e3daddd0c98d375f, 0, 0, 0, 0],
  [0x24eb81f7a3878002004c0823d822924e17085a3779e20797e9a42d9530343cd8, 0x50f5a5422c181bb5cd873e4df4271ccc8799721c7103728f9ac27d89760a231, 0x1e50824d4cfeaafe0ca0e041f40e2da6ddba09fd0defbde1f111f09f1614cdc0, 0xd9138da9cd2ad154a32f64162534afb6b3213c4d37e15f6f4e6a52e8c026ae7, 0, 0x2b1e9197b51c9d81cbf851c9fb5711217dd27b350d0b7e6aa272eec2c0f6b47e, 0, 0, 0, 0],
  [0x39056dc14eb71fb4565c2400133ccd33ea4b0a296ab539f1dff3669d750b7217, 0x1e8aedf00646a9a8f8ea16ef04b1464799348bcb71a0379a64b55326da1e6f4c, 0x2890621b261076280633d8c6667709e1d729bfb41dee5fed756d82a0552782ba, 0x2a5eac20b6da0aee0427ade49db7a02435320a0533592983cccae14d5f2b9a52, 0, 0x28608c93a923482d11d9d09c6b23c3f381bc71f051bb18406f1ffcfc467b7dd1, 0, 0, 0, 0],
  [0x3f93c36515527fb128fd02db96b42fbdb6aa4233f1615aa0386ee16170928277, 0x647120e85de3d817447faa657a1263ecd3a669a9d7c110d262c548b71f22b13, 0x1d5d4e1a5f58e68cd94aa8e812aa23159db6a823f62c81820c9965da22df324f, 0x21df8961dfe4c54657e0ea8550f6ad3f9e6b8f4eb5a694d755a172827409dfcd, 0, 0x3f5ac3cab413a65f84ef9dfc8431cf1114eec653ac6904d428072902fee9994c, 0, 0, 0, 0],
  [0x3959635fe2393dc1b12ec306b1aca45a80574b74b7e46f39b893e430eba317a, 0x372086a11251e56cbcd26d134fcc6540a771112084459055d6cfde47b6b54e17, 0x3da4bb8196887d27a3f502ffb88b79abc9e9a16b12880074a9ea6150eda2be83, 0x211bd807017e1d26b8f3338bc56025042053b526b578f110ed9e7bdbe2ae33f6, 0, 0x336a23dad134aaf3431cc153d64e83e495e0d4291c2f17cfdeb2bd1fb90ce8f2, 0, 0, 0, 0],
  [0x28c82b5d9111e0ad77369dcadb243ae7b9d27348ccf3c681b1de635b46944452, 0x18369f0f53baca3c56eabb9684cb46b09d136858e269d91f25554d6ad14252c2, 0xeb57eb98e7687f7fa0b2466e6b0803a5a3d5bdf6f9ff44ac45a5f4247356f92, 0x204cb0754c96ac80310e281c7d0262c82b016d1897de28eb65e2bd87a6dcc2e3, 0, 0x32c59c8723139415dcf32211c6e8c6f0ba7851ee107095cc29953b9c4827313c, 0, 0, 0, 0],
  [0xf8f507d03a3c83dee6b35d3274e32315f6a1101f01b5530e885974cc1994bfa, 0x2cd572e546d48b096d07c189665c94e83c7162e986750be2a6170b75ea6c9400, 0x3b7e0c9e5f14e7f6d69aa078a1d4ad6f58bc54ac8ef9800ae74de75a9db440b8, 0x18feb4e67a69d150f86fa497cad827295a63e4d299d9ccdb28ea2e8a3c6236cc, 0, 0x12f6c18a93089cd3106eae6b73cfeb07c60f512a1c21fb281ee4a393dd137991, 0, 0, 0, 0],
  [0x35fb5064c1dbf0fa3c81ac263e078d0e75793c2f0e460c79a784b0109fdc161e, 0x1b97e3f8b26afd0cfdd42df624dd0c8fa26641ba094a19e116efd1660cf439fc, 0x2fee1e0d08c4d46e464935c891c70aa6b6a46a714aa28e10e7b710ac4d5f2dcb, 0x19ceee336ae8111d37eaaf79a0efdf83ca0d258e94abbd9bded99b5531c1d529, 0, 0x899da8f2b32fd08986a4d3002a16e7ff3bea4fd342df277ea95ef4bc1b6fe99, 0, 0, 0, 0],
  [0x1d46588618dd0f1332bc6a096ef6647386de899a13088ba28fe738e3bfdf1e0, 0x3149bc6b844df39f0ec954b798508405e2a402009b8aa454eec19ab3e8a344a7, 0x1d10ec47163191abcba132a95b3a38e8aecea594fd6d6fbea89d9e07b8033036, 0x108711e630aa92c83c0d85a21cfda53d554808cfec28082a3053988dbcc6a29, 0, 0x1f9f2c9906f41e0927edb6c07c91e958a5466d04204e637039ac88780187c3bd, 0, 0, 0, 0],
  [0x21335f7d664d3fdbd9c75312e1cc4f6d1d4a1fa1408a28dfa3a4dab46f8049d5, 0xa832d47034111eef9339c524d2a36abce7863238d1b0e439cdeb50e9c0cf14f, 0x182630840558ad1d418f2d8dcdf08e66c8c900faeb8d998dd4cc3294a110d8fe, 0xfa48ee8cc12e721e6622fe34320c16bf6e1f89f5ac872576c6d085b5b2573ec, 0, 0x277a5e4aa04c5c2f47df1be3a7853470ee225f4b6aa0a22941df96fb172b0a19, 0, 0, 0, 0],
  [0x3bd3d42450e89e52078b029c8d1d6869ada42e72451091dad3f403103098377a, 0x1adf1d0241bb0640bc5fee5bf48c43530c4b587d052978629e5b4e5889f9cb4b, 0x1d76163599e6bfad9b201a9a87d2f0b179fd5250d2f23516589d097eca1787a9, 0x13129b63af6403b36af87ef8d64f0428762cb6833380b5a8d5a6f53e613f2404, 0, 0x3bdfcbe0e995898650d7fe1091fde181c376e3a1744cbcacf866efdfe216e9eb, 0, 0, 0, 0],
  [0x37c04b0e8b2fb5fe57240e3a1d1d7f804607f3ae1297830268a2fe3b5253c298, 0xc3653926df82b90228234aeb3d11d0f6a1c618fc5171884af66c1ecd7217bfd, 0x30bffc6cf4dd002b639c69bd41485fcdc4c436f39e1cb3e43c44f5a12a59f88e, 0xe8bb60ccaab6577cf520870f5d70dbb8f62f3a4ab1e6c3a5481f66efd659443, 0, 0x20e43ad780254f55cb5c85c6d9bd3246c79bb2ffe60c5da5149471dd34c439c2, 0, 0, 0, 0],
  [0x29550e1a502d19acf13294ebff59607f00f5123a0e82847e379f3bb9cd32040c, 0x17956aa5c290b6e310744c1a814d4b9a2af41e29bc4d94ea108b4d35efb606f6, 0x1915684b5c1cd757801852a09eaae9a4ef6e7877a95c651d125b15f6da908e44, 0x2813aa16d978a0580224b504d5c4a23523ba1f08942c2e61c6e6717d08fc99, 0, 0xd3404b94b613faf9ab030b7f1691d0f9b1a03892ddf8ba4afdabb99dd99c6c, 0, 0, 0, 0],
  [0, 0, 0, 0, 0, 0, 0, 0, 0, 0]]

/-- -1000 times (-1, 2): the last addition and the sign. -/
def thousand1 : List (List Nat) := [
  [0x29550e1a502d19acf13294ebff59607f00f5123a0e82847e379f3bb9cd32040c, 0x17956aa5c290b6e310744c1a814d4b9a2af41e29bc4d94ea108b4d35efb606f6, 0x1915684b5c1cd757801852a09eaae9a4ef6e7877a95c651d125b15f6da908e44, 0x2813aa16d978a0580224b504d5c4a23523ba1f08942c2e61c6e6717d08fc99, 0x371077698046adc792b2c9c4d9f037d00921556f266cb2cd193d42b56958dff4, 0x36d604128a2fe0b53f833755eb40aba9f5235b2c0bf9ab09f524e53c1dd812f1, 0x3c85ab80655b98f119560ef5c8a870b7a483a16ac25531d9ff91ba35786ea1f0, 0xafb8f9dcd9cb6be9d47e250ae3139efd705f98c8ff5e056f43b757a1000bba4, 0, 0],
  [0, 0x433f2b04c1c50355f17afe30d2acb11d55ab2d4cb794a32301a77b8e888c1d, 0x4cb2332bdcd3f105f3b487fa2b9632a0296878ec2fc8b215ec81c18e36b805e, 0x3fbcc0d4fb3e3afcaa0e8501cf2d534f04f0edcebc956478762b8971717773e4, 0x40000000000000000000000000000000224698fc094cf91b992d30ed00000000, 0, 0, 0, 0, 0]]

/-- p - 1 times (-1, 2): the windows. -/
def top0 : List (List Nat) := [
  [0x1c0000000000000000000000000000000efee2ee4411acfc1303c567b0000003, 0x2b00000000000000000000000000000017076ec9563fb75e8aea5cdf3bfffffc, 0, 0, 0x40000000000000000000000000000000224698fc094cf91b992d30ed00000000, 0x12f70d1d0c150a49bba0c3ebe04a0bb79fd5e0f0e71253b55efb470887241987, 0, 0, 0, 0],
  [0x2b63203d6bb657e0ede720751857d3c1f06b175577cb291ed5257c883aba0521, 0x355deeeca4dbc28cbadc25cd79c8c2c971006b88172028529ec717347049162, 0x1c0000000000000000000000000000000efee2ee4411acfc1303c567b0000003, 0x2b00000000000000000000000000000017076ec9563fb75e8aea5cdf3bfffffc, 0x80000000000000000000000000000000448d31f81299f237325a61da0000000, 0x175d2062cb45d341866f01c4e7c19842a99f8647a297b446e03b13a4ae23d8ee, 0, 0, 0, 0],
  [0xdec67c5865cc934c6c5f772ce6499723d8b8b7729276803c9db0f675b85d2a3, 0x2c298ff148170c34f2dccd047400e54b3b2eb1e7d1c5472388f59094785f10bc, 0x1dd1da0818006ca6b51938e196a61b4d7100c3469f17df35a987884a19a92f83, 0x225fed99a39b7085b42d1ae6acde14ffae68d658c86983e1a76177e086cd4e93, 0x100000000000000000000000000000000891a63f02533e46e64b4c3b4000000, 0x29ca854f9a738e032547c525a45c018fdcf0702cb1496a4ed7447120bb2f386e, 0, 0, 0, 0],
  [0x1522d5a4b71211939dfe3b7066d27c8aa09415d0c215c8e5446bd74b84ee40d8, 0x23e876003359803dc60f872641c1bcc4798261c3a4eb2e695ef4c0c4fb24f54c, 0x315ef9d690c32611720f787106658339ab78b3263ae9366e60ce7e3b13231fe9, 0x37b948daab67c6682c5a2607caf53164465403ae0be9da3528300812a84b9951, 0x2000000000000000000000000000000011234c7e04a67c8dcc969876800000, 0x2a55af61a1b20673d39a874370ed95a456a8e768b5300ad6f381be28adc1262d, 0, 0, 0, 0],
  [0x2138dec9d478796ed51797e095f7333bc0e13e4b347b9f9e8008f2698945e3ce, 0x15036e0026cb3247cac264892dcdccecf5f8ed588534dc80431c219a048e0b60, 0x3be00d0331644dbc674a1042ab32e5c3ab735cdb6dff9e2f074c04457b4574d9, 0x3e2ac7a7fc4495aeac24cc4d0ae1798878da03c313f1ed12d7dc04842488f457, 0x40000000000000000000000000000000224698fc094cf91b992d30ed00000, 0xf2246a0460747e778224e33cd3483c13a5fe46d33b9cc0f453ec0b3b2090d83, 0, 0, 0, 0],
  [0x1f7867fbf8ba29771268a7ee1915a2fcafe5fda4b5f7c321d88066c30ab72815, 0x30f57754008e27fe58d42fa2d3a4c1561046b07645ff5a1cf4a292c9984d166b, 0x23ce87081aae8a8b96e14e3984d21fd549cfa47ca9c45607c55bfa7005fa229d, 0x15e24cdd5881c33c35ad3583d554ada35181cb40ca7d700042b5106b29ac3747, 0x80000000000000000000000000000000448d31f81299f237325a61da0000, 0x38761856281aed82f1e06e93597369f22ab82c9148dd33e8664eebaa8a98655f, 0, 0, 0, 0],
  [0x29fae509ddaa173033eab1e9bc38fd8980ede4f5e1a56e5d96c940e6ae3a2cff, 0xecca5fbcbf7fcce23a0937c06912d4a03e8bdbc13d22e957fc56e45619765b7, 0x75d5b515024d81c79257b3cbbaeb804c53e4d1278a8975dd074ccdbc2a61346, 0x28fe75de8841332f03834310803cd16cabe4bf5757a3467cb4b81e9d30a36537, 0x100000000000000000000000000000000891a63f02533e46e64b4c3b4000, 0x36496968453be26f8302a7360921943f8e51fed926f4f0d5cf7083480cbcd6e0, 0, 0, 0, 0],
  [0x16dc2168a0d326fd416a3043ff4756d9ee6bd72e2c5e3f50e478803134fb5cf, 0x34bc35c9ea1e4aa198e3bd4ed63c0f790f71ab84be1a4756690a78c155477589, 0x279d86c8b70b2f364b5105f960ea7b0bb6765fcb7a3d75090f1a255dc5aa25a4, 0x27b4be322b4ed9624a725534ae86bf822af4d2ee652b6804aacb11050295852c, 0x2000000000000000000000000000000011234c7e04a67c8dcc969876800, 0x29463dfdaa96b47998c8a1367f422841aa5b764cadd7b25a4b781e683c6b12b9, 0, 0, 0, 0],
  [0xadece9b94a0141da7378b261047c0ca24b1c1ef05e2055d9ace940d47867319, 0x2d599dd661fbe1d728439b139c0d83b74e9f3e6986e68f7480545d4ec4d24c97, 0x12865c7856b4c425e8bf45a0f7b026c939cf9a502cd8077f9fc63c798c75d540, 0x4bc2f026536243b89a4efb4cca89b03a2a9e0f6e5f5fcf53e7fb09fbe0e6104, 0x40000000000000000000000000000000224698fc094cf91b992d30ed00, 0x1fed61a4056e090f282ef39423047ad7d23435de7084289748add4f2654882f3, 0, 0, 0, 0],
  [0x7924f429e6518fa218e3b2f7e145a1a4249c683df9a383b64f103dadc3934f6, 0x365ce95b3472ef4180a0fad6c13c938386a4c75726e2a90f7ca7de2df7024b15, 0x29e61144d929f92110f0b641befd762d5cd97fbe4cc1c665560583e3f211cefa, 0x1c4909258ba5df8838ea7f7531d8415cb949b9c13101947b9e00ff05ef5930c5, 0x80000000000000000000000000000000448d31f81299f237325a61da0, 0xa7fe045dc6febb49b93e0a5c262a1e4af20f5d051f54846e3daddd0c98d375f, 0, 0, 0, 0],
  [0x2ecf2d9072bf83cefc5de8e3ad901050cf396d8a5373df6dac140b4b436c006c, 0x7c7a9a026fc5f08f5e036fc7c14e2ec652e33f0efcf8fbf32354e9aedf55186, 0x3119679754758a55feb35bfc9b1418d323747b197626f2e4d08d835e54e0bf9e, 0x30fc665b337c3f7776792627d45264a012e47a57dfa66322df1ed1ee72cc63e, 0x100000000000000000000000000000000891a63f02533e46e64b4c3b4, 0x146645bcf7b9dd932cfa0bdd6039a786c2313bab870199cd9902269fb73bd457, 0, 0, 0, 0],
  [0x2df7af6ca1667f65c26be671503960b355e160b5542e33abe896a3f7780c5839, 0x48ed7c5183d4b233d3837daefb04736f25d599235cc9d3e22513f505c29597a, 0x33db98a8ebe9c3e057ea3bb0e859f46a28aae0c54a6a0844cc900da19b3e1bbf, 0x84635b1108d588a42daa2231d46dc1a4b8a707a71233e106399934954f7351, 0x2000000000000000000000000000000011234c7e04a67c8dcc969876, 0x2cf4fa634fdd7de9ec982e605bddc459dc75ec0460010d3dc9c601bd8dac28e, 0, 0, 0, 0],
  [0x9bca6400ba14a8cb30b02c7de56f4b19ffe9f0eb3d0bdcabd004fcd02040d26, 0x2fa05839b3a59bf86503103d0ef3afcba66da39ceb702e8a822fdcd4931e246e, 0x5e8f20c222a3fad249d03c684a7e51ace1f3af4871c1ecd018c8843800166e2, 0x2a298937e83b72a33769ba270af178004cf39314242e3c695c70660c7c2e505d, 0x40000000000000000000000000000000224698fc094cf91b992d30e, 0xdc083ff569c15fc9859fc38855c17dcab34cab81a4ab80915a3ba52280f1a9, 0, 0, 0, 0],
  [0x1403357af15782056803f88e6727b01e7e96085e214655539845a6da5f477cc5, 0x1958a8d12dcb0bfb9abfba38a8cfa93aee91577b3b7070ea9f015ecb3a5a12ac, 0x2289b3753268382ed9efade44582626358852d5316be4f986a5a3ea4271cf182, 0x922da5db83b90dc190d8d2d21fbca1904b2284028e4c0b8921565bc50edb74, 0x80000000000000000000000000000000448d31f81299f237325a61, 0x3bb0a00871d998e8dbf9e248ed2e490cab4adbe411dad42728f51d2019416d60, 0, 0, 0, 0],
  [0x223801df21764032c20d6927b6229c7d647e349a99229082034150ee1a503493, 0x225eee08958b8547d10dc608e19a6bcbce9e36a3a17bf43bd6001547b146f8, 0x2dcb74e0507e888e58c279b787acb95cc650928b53c023abbd01aa8244ebeb26, 0x33b66f90bd17dcdc20674b4f5babc6db236423b519da90084c556552c6c370eb, 0x100000000000000000000000000000000891a63f02533e46e64b4c, 0x3f31de4d91be8711ae4faadd72adf8687b8ece66e243207bb4743d308234c22d, 0, 0, 0, 0],
  [0x30735d9c03c29d22ea4a230b8e161ee9570514e8a637bb16719a8e41c2778480, 0x345d0e9334438145964bab5bb7861668b25cc07d4a83e4186d38697054fd4d07, 0x3d990b48fb3e91786bb604e81aa96841c7f36cce62ff6c5621df6e80d4a08b13, 0x15c3cfd2741a9215f34e05814fa9d2734fdba3f9c67e6d328b476629200d33d2, 0x2000000000000000000000000000000011234c7e04a67c8dcc969, 0x1582440189f880a42afd77f738a152dc5870ec7ee4eadd11393195fab65a0d83, 0, 0, 0, 0],
  [0x8f50c9af67391a523110b7ef3976310ea7d027c7937f9c5982e7c749049ab36, 0x3eedacbea80730f093c317ac2c7dbff74fee5d34c02ad1cc81a9276ffdf86adf, 0x6589bf514039d0d6491cb3daff1aa4408a486db0dcb3e6f6ac80bbaf9c7ce23, 0x13494e05145b2cfffc7129faff21d82891262a8b3af032d8ccc74bd3731ebc9, 0x40000000000000000000000000000000224698fc094cf91b992d, 0x3e557b356c08a658df5efc398d72317840989538edb911ae7e21dbce72be2286, 0, 0, 0, 0],
  [0x3a6d67fdf4a7b09949e12bc976b052036402706b1820c8ed0d48b442408180b2, 0x364356a968c5676175c930506e0604fdf0b466ad7ea35f960df67e5c1f259b01, 0x1420c62b6a5e3f1ae3c7c7763fa806209c8fb49da22bbd12659695874ba38487, 0x16d7dcc9ddc5abc627e92abddd9d9a37d6134cfc873deb53c1071a5841f1a3d3, 0x80000000000000000000000000000000448d31f81299f237325, 0x387f1607b205c77ea3af35c9271cf491e60845ad88f2ac2319d4d6fe4a8d436c, 0, 0, 0, 0],
  [0xca09bbf871ffe43e3119a536145ee1d38741bea82b0d64032a9336ccaa9c6ee, 0x2cef425a2b1081565398ab38e8593123350aa28790a8c873ff8ac40f6afe5113, 0x10d8bb1981a72da126cced9f467502ea675eab9dfdd5a860a33cd79f7773d477, 0x1298d9a313ec42579957c8451681048544c7ba8cef66613d4d0ad17bd5b6b6c8, 0x100000000000000000000000000000000891a63f02533e46e64, 0x109d1516c0c85ba0328023f920cb44f13aa4a41aa6e34b1b7226889da3fb04ca, 0, 0, 0, 0],
  [0x32be2e599807e7141729cfba0db9f538136000e7948e7fce16d519d721b41294, 0x30ca34e0e19ce146e6495bf7c74e262205c3535b15464fd1d232b659c325762f, 0x17f4669dc1172dcd89cf45da5c8e82887034b40dda96a9090ad72423c743a29a, 0x2b2ae555bd1430e68f1041d949df252729f739006a608a1e6e3e7e919b7a8c87, 0x2000000000000000000000000000000011234c7e04a67c8dcc, 0x26de8faafc97c45cd75a12a3b15242496f38aa9bca812516a6057782ed014027, 0, 0, 0, 0],
  [0x24c80eca80a7035e487a3ae45ef94d8eb11adcbeb6e8869485538f6537b2384, 0x2ca6e55ea5f7a7442790c0c18eb779195f4b49d6483142021d36861ba9cadb59, 0x2e3649c5f8ae72681a2aa56a64cc484153926ee2bdc0719c4bf0322720379e9a, 0x6d556664992fd18f152d5971aa25830643f35ffa15ff2ce5258702579d00023, 0x40000000000000000000000000000000224698fc094cf91b9, 0x32391430b827ca8329f20a16abfb98e0a2c5eafa99028797f88f78d4b009d35d, 0, 0, 0, 0],
  [0x33dd99eea3ca2f24092b7514025fa799ed83e813fba0e45f5a05169a7a6e0132, 0x3449dece4c0ff36084a9592fdb6cb00389c6f28d61054f67a95b743c7fda6de6, 0x188566c9b2739fa4bbd1007e9cbd0b71e3b4d64306b59da81555ff12db319d44, 0x3fe6b6068bd82999595bf154185da2f9f28d13b91764fb3f9f86aa603e2ef399, 0x80000000000000000000000000000000448d31f81299f237, 0x1ab21d65c761ad44a0cbde205db03afe61bb4d69ed5783a7895d551699077a43, 0, 0, 0, 0],
  [0x2c28c6566def7e48e835f41784f4d8751b94088bb4e40299c7fc61454926133, 0x8b11299d10336689cb41e64e8f218b6f1693d16fd616fd2668a0e4b81b3f45a, 0x3d56f01db4a843f8ff83bd1cd7d5b1593d98abf4da6058acf8eaf882cac42329, 0x143a9304cff45f938ae378cb2f0bd9eddbfccacc793b2897a4676c60c7e47fc0, 0x100000000000000000000000000000000891a63f02533e46, 0xc23510da4abd70f6d8c98b6bbf8b757da218cb850e42113c1c39f0e1707e411, 0, 0, 0, 0],
  [0x34fd371d45e30d694e9aceb9895b4f954422a96fe87388e6870c89e882f2043f, 0xdc5da2e937787bfe843e4d0ded70d367fed5345bfcf8feab68a2cdf8d5d1bf2, 0x2e1470a829bb546d114977e0e8f65449aaa628acadbc3effe9c7657180353ab0, 0x16dbb3340d6c9a21dc736e42cd0593e8e37f9fcfdf8e60f98caccd158173e040, 0x2000000000000000000000000000000011234c7e04a67c8, 0x32f90ede09e21322ffe53d6e7ef28c81c6461d48f5356ac12e0d9983582c331b, 0, 0, 0, 0],
  [0x10310e0c19f0b20d81b9e91532f8452057321fe1dd06cfde43e0542c2ad54909, 0x131db4773c06ff22f9615bf720bb8e4a054f2d661fec108a1003d01f7a699794, 0x112e43237586cf112b68ca658e1be6cbe4358488adc1eb70caa47785f6854468, 0x398b0e45f473d85022cb475b8552b1718a645b6cde000a3d442af95f0ee2537e, 0x40000000000000000000000000000000224698fc094cf9, 0x2928696ba4f8dc1e21c5df3cc0c666609835e2637e6a7983ab2ef6c7e65dac2c, 0, 0, 0, 0],
  [0x30568a323f0c40fe8f5c7ab0b836a9afa8bb80c6770f98275ae3b9a0352331ca, 0xf9222e8ddde20bb4ee31bde100ef729f5995a0095b27fac9227e93b20fb7c23, 0x1f3142f9fde46096f1f74725ed19d37bb473e0d35c9a7b13a425edd8c971a050, 0x2204fdb11472be3551bacc038eb969b0caa1fae3941e2abd8dfcfb83e841e32d, 0x80000000000000000000000000000000448d31f81299f, 0x32d6ee1e755dcb8919587198c8f5372109606cc1e25efd73293be48a4ddc682c, 0, 0, 0, 0],
  [0x3addbe6bd21ad17366ab7a09b2604e1a54b15530431eed732cfb1bbccddc7ab1, 0x7f91ab77d34d22e1c84c153dec44f60fd8082f58f4af1ef5b0d3c31fb07e08a, 0x98dcd1e3edbe9fe299e77d47225f3e9bea0baa66edd5018578a4c6ed7572f71, 0x2814453a7bd06cacb08921f4bc500699bdf581229128e671abbb2ca40711b93f, 0x100000000000000000000000000000000891a63f02533, 0xd34c2a20b3f4025656d02a16052522ed7b4546416970ea8a15767c4b73f0f06, 0, 0, 0, 0],
  [0x2f1a05cf621d8856b2f52843f1b9a0c9736244c1a7e15d57ef9f1561fd4148b3, 0x2714f2b391f4925e6397afe298749509fe039a419ee8194aac047239fe40679f, 0x2ded5e83d09d2064ff150e4bd69cdc244b114ba1efe341c847183840edcfda33, 0x3a96d690e9a72e9e2c4434daa9f079a49341e46684e0e254ac69ad008e3f5485, 0x2000000000000000000000000000000011234c7e04a6, 0x100597b9020de27b41ff9aa1c2e0305da8540de2792686c18fad938ac7a0e323, 0, 0, 0, 0],
  [0x21d399458f9f7fab5dd006df8954f1101c95988effc4f2d6dc95f3de60e23a07, 0x37ca3532baebe7c699a6fb1c4cc924276737d4222e4299c6131375d8f988db70, 0x2bd604635a6eb39d2130d1c72620f3a71c77a86d4fc0b12c86f23b2467df8ee7, 0x71a75a98b2f3e7a87a6f927daba608492f49b2e769a93c742538aea42c8ade9, 0x40000000000000000000000000000000224698fc094, 0xe8e596f45d87ddf91f8ec409f81c38a8606a3331e8267e022ff071223328a9a, 0, 0, 0, 0],
  [0x2ff7d38f45a42ead7e65e3d08d9102304c862395c302a2f155ab4487e92968c1, 0x1c5f071f50cc7598145735d8d925100b1b80393975545b9fe623e0f7e2db7e64, 0x3b8dfe3f7a54cd189653b8a03c5f2099f44912bc1b2759227474b611ef819880, 0x2de15480de4d186d35ec84373368b285f88a01ee62c1199d7e1b8ab36b5559ac, 0x80000000000000000000000000000000448d31f812, 0x3d102f7d2b9d2f80dee481cc87201cc78bbe06c5f62c4f696c80247cf4824f8a, 0, 0, 0, 0],
  [0xb84924c4ed1ab1d78322e215232d5e37aaf447e4a3a01bcb95b8a16239d050f, 0x2da5bdd2d1fd290879662035cf649da05716239316b1977d58598c8188fb5e2a, 0x1e0ff00d5ac3a644e408aa67e93f12234f7f79d3ba6e46c19fa86f4e95cfe2a4, 0x6dbee9327d7fcea1136e30b6167ff17cc1795e7a2e888daea50e215977dab9b, 0x100000000000000000000000000000000891a63f02, 0x2fa8b7bd29dca772f11c135cbc37e5d432770b0872fad5c08bfe9bc1bcc78750, 0, 0, 0, 0],
  [0x2f7f60f5abb9d3f79d25dc740ba55920d510e2f28911f2e80e863a01eb23bd8e, 0x14c33a4ff9fbd09a049824fcdfcda55e936a99892c68c2a3582c56c301d68015, 0x33c9fc941e8aceb4c5493f55d7ed480d4e644ab7d91faaf94bf26e7bbe30d0c2, 0xd8740f73b5b95a7d63add6c962c47e3cd3a3d9125638db8aedb15490c702f55, 0x2000000000000000000000000000000011234c7e0, 0x1a63cc1bf4ae0e53564ab82df3eb6a13282331c53b091e110921afb3a0bc8915, 0, 0, 0, 0],
  [0x949a210ba9bd16084e500efd48201321833b92775a87a9511c615d61e18b3bb, 0x3bb2ea1869ccb36df03274df282dcb518a267cf8f790e5955a74a4aa685a5604, 0x3f1cf03c918ac920d38dd1e96f8fa16a1147af251a88994122d114891a310f79, 0x3f8f624d634a4715096d4d6b2a6d96f9349a73f08c880161a779141882fc7779, 0x40000000000000000000000000000000224698fc, 0x153b36b8ee67c5ac20bedba6aea979cdc109f14f801ce26cb41b682cd976ba6f, 0, 0, 0, 0],
  [0x2d51f54905d8b14672e50200bb790a89ab58e7b31fa381a7c2dcaffb23ea99b8, 0x38c906c98dc8f132e37b573fbaade89cae081825de2a9a2be8e27387fcd89c13, 0x15ff8bcf3c951ae165c3ef49f020938cc1d06de17884f1fc9d0a12ca1f0cc315, 0x40c6a5a36daca9c66002667be0d9b33237af3593f3d3f0010978b04a7c0df8a, 0x80000000000000000000000000000000448d31f, 0xbd363939f42639cb8d819ffedd35e4e08ab4a58215e903fe5f20348f9bb5573, 0, 0, 0, 0],
  [0x129feccb1c227c69f0262c17415c5db2b97c7ac6ffffbbd556e89aabf3ebffe5, 0x22114b3fc582702714b603bc97b85e77c61111e259df491541315c46829a1d7e, 0x147d4844cdbf1f45f3398ca2dc2aaffba5d18bc7df7581889bf58baf64f3fe3a, 0x37ba63821527e85a0c6b57e1283c108deb7d81bbe358dd9e9fa450e8361ad686, 0x100000000000000000000000000000000891a63, 0x22d36b834904fffd005c99d05ffcd127ddd2972f892262049f7bb8e45541097, 0, 0, 0, 0],
  [0x2a389267ef721e33e755045ed174c5a50d766cf6d99c155d522b5959f4551c9e, 0xbda8120db0b61df222a8db28764f0470e22fb3abd8a09bc2ac8faf8022095a8, 0x26198230b36f3d3f39cc56ab6023a380bc1a695bbe3fbebdaeb9d2fefc7a609a, 0x3c15f6c300f4e66622201de503b53b0a9204f3f290f771e3366be9c3ee69ce9a, 0x2000000000000000000000000000000011234c, 0x1d2037e45e97a5b713e2fba738daf2e230beb4fe8d2766c28083722aeda76cfa, 0, 0, 0, 0],
  [0xf102c0a8629735ba3a7a938d45f062a746557d74946ab5d0ed132c36617c51e, 0x1c96af4630c0b9892dd029184fa8a7ea496cc3e1306d98d1c95e0452695714fd, 0x43d0ae85c7931d5e9861a74271b4295bd064a8d2f5d117e74ffce06a7ccc446, 0x382b5b62e594470ed7170dba2259a73f741c6a86c0b698b47596ca359b95b529, 0x4000000000000000000000000000000022469, 0x464f1fab6a252de6a3aaac5dabb27d7a98fed3e2ffe2ac01f7f26dc3ccafbc9, 0, 0, 0, 0],
  [0x3dbd66147df101862807454c35b898d700fa99b132043dce267cf81ec368ab90, 0x3b33a38a8781554753c365f8673f16b8616728de487dd915df83cff03b173028, 0x20ca71e71a5c005d594a945bd331d0c403f0222183372bb0780ef7e8dd6270a3, 0x23e88b500907a80699a6d18df7c4fe2810cdd40bee9f677b98cafce0228d50ef, 0x80000000000000000000000000000000448d, 0xf00074e9757d8297f824d40b3969415f98252b1f67eb5e788699cb9e795750a, 0, 0, 0, 0],
  [0x1d2487d077611c204c7035f44aab336e33a1d6cffb9efe9ea04338b45c95159c, 0x214d689bc7758f1c4dc6fab8ba717378209d81f13bd53481f4325ce4259f84ba, 0x230348d13ae07e67ac760fbcc8a8b90971ac7c1b39119e42f511269d49589e4, 0x329ca6405807e18d8160896f6e87c779fba715fac39e8535ac0bb5875e06e3fb, 0x100000000000000000000000000000000891, 0x13f8d1bab46bcc51980f26228b5fb388eec60393be2ca2ecec793ac7f0d9768a, 0, 0, 0, 0],
  [0x12c7d4a97ddbd4e70173f757034c28c3fa8d219f1bcf7716d7f1fcfb1b058864, 0x8ef6d2a01b0269f33f842a6cf9150d77cce55dd571ccf71c857c88cb0dc43f5, 0x1597b20051fc4de15103852e6f4b0d194e500e9ff21463ab7ccafa62c76f0f22, 0x1e50225e22682650cc140072d5f141cf55b40de0eddb08e93ac730c004b8f852, 0x20000000000000000000000000000000112, 0x82ac09c6873693a2481a3b1ed8f7d153e7353cf3e947395e3334cdebb862021, 0, 0, 0, 0],
  [0x1cdb5a2c15a74344d2fe2f0e56a3445ea5afc678faf0aecff4193c63a8eac3d1, 0x2e3ba26cc349f552c7784cc5f638bf108a82a7555549088b96c10602a9d827b0, 0x2faec10fe11d3b6027e14d651415f9925967455e4882cb441bfb3628d410fbba, 0x24bde9f8060a68ae72d2f153346c529671c7e75ba20091e22e38cad7d40d647, 0x4000000000000000000000000000000022, 0x34d0105bb51ac3f12206b6a98ffc6f1e976b198ed4e39eb157dba5e4d916a98c, 0, 0, 0, 0],
  [0x26f3a63b07b5005c5198563e73a1f74bf8b76a02ef45b0d5b319b5b5cdddb038, 0x2b801936323af1ff7a6d858bb91e226be5c8412369b8c506e3d9eed0ca8d79c6, 0x302d4dd090ab61ef8e75eeb7c82dc3367cff121f18c778c1a4c01401fa7562c5, 0x198591cf1691068e0de0bda4c8ea538dae5bda35e0fff3d731ecfd797daea90d, 0x800000000000000000000000000000004, 0x3b63af47c1d7de576d6d0d3885148df170a9e6a00aae8a0b254bcd3a4c3395d7, 0, 0, 0, 0],
  [0x3ddc2602361790f9edb41d2ecba5a33a58095e73b31f2e4869a0fa0803dc4843, 0x2350a7f5001193da1b879f9cb5b9bb172b1850bd5b3a0a14559d859b845787b0, 0x3a7aa544b48950577f53870cfefb10c3a9fbdd7615d1b53e3a057929bca6f328, 0x1d8ce044b1a730c236c26ba86cf9acff8e84f6817fa51047ebfbfe188ee97c73, 0x100000000000000000000000000000000, 0x2301141bcd766f067c44983055d0ac2b73e3daa55189c2e7352e1e7d560d65ae, 0, 0, 0, 0],
  [0x392dc9cf65a4f53943553b33fd0bf5f003ba120db1b3cdaa19d26796351313c4, 0x271ab3c12581deceef083aae92d062718ae029ed24971f182ba01a2af8d440c7, 0x35ea288f6b89959ce6de9d0fb394649273bcda3e80e5a368dbc8287288f48457, 0x5102b65d9dad8866de4202b2722e1bd9111e62e15ad8a5c234d7552886f3bc, 0x20000000000000000000000000000000, 0x381fa00805553f4f8eb9770844b434dbcaee5c879c153ce1ff1b2c8c78bba21, 0, 0, 0, 0],
  [0x297f6049ce4125970befb0c86d78f59a4dfa839ba7609ed2edfd113769eb7b54, 0x1225d727f8a7354a208ff4aac26815ea992b46794bf2579b192e346e7b19fc90, 0x281eb5cee6a660a8673b2f9c66b3705dd0ef3a90a62fb1e8ef48dbf3fbe7afa7, 0x178a209aeb313f9ebd0b7f07032cd11da4bf11d185bd4eff1a910830204557d0, 0x4000000000000000000000000000000, 0x3b49c6b2cfd445d48b5374e540822faa5ed04289291d7206c3b1f468f67e951f, 0, 0, 0, 0],
  [0x2ecab849ef4e687e6079beb9f8da0585a491a2bedf9757435077ff76532f7d2c, 0x13ae7d84c5b0d25ead419e2d93d4f273821a5c34712c56c40cff622e6e92d670, 0x1c3db9e309cf3bfb8ff7f77bd3bec580e318bcf00822b2d5711afd319f74b0a, 0x15a8f910516d7cd8a728eacd9c34e4d2023946021a153131412bc50d3ad53d32, 0x800000000000000000000000000000, 0x2839a238736d06c4e510edd0b6048f5d2f7b89c8a1a9cbf6c2b6104c26890a66, 0, 0, 0, 0],
  [0x386449015784a7a63799f15bbcd75890cfaa0775c46e4ddf38a595518537195d, 0x75f2532470fa4ed5afc51231ff96fd0633044a5afe5289adb721f44dd0a69a2, 0x19cc408a6d89cd07e0bf2c9e5fccfabe98bf2692b23e9168d9500fbf6d769601, 0x218149421676bcf66d1d84ee3916b07c89a794d0dd02da1d63009908ff5fde, 0x100000000000000000000000000000, 0x9a7d95da055cce3eefa46526070e06abfda2ea60a924a27d921ce1fbcb9c5d8, 0, 0, 0, 0],
  [0x3f3b7dc3e41d56453f76fb32485664f862307479e939523af1ec9937c3c00dd0, 0xd7b5b81f7511cd8dfaa48ecf0c7fcae71ff938d4680d70e03427f5a276d3404, 0x1363fae952fbe9aebe70df720ab4a873fb4aaac433be4608eae755a7fd615276, 0x1e226e3ba562aaa2f5f40b48e862f8da6748bd2eb9d0b7499abb00d5e9422b92, 0x20000000000000000000000000000, 0x1ca4e5179af101e8e7b6259d38c349e70cec04f09b28d69af0b25d2fa25e5216, 0, 0, 0, 0],
  [0x31ea2683e7f76dbde580f7c5cc142fa4e75b233c29b2c7b7c7eee7f139dfc0fc, 0x1729e30e44cb2ba8321960e16c6188d4211ee27c35538941e84df6ee4e369b7e, 0x1754438482b67d7102fde398bf9953021bac146437a3662b442b650fc6a072ec, 0x3650a1457e907ba7a984d8b41f26c36e6a0aee86b187bf4b2c5a9be51c7a3a20, 0x4000000000000000000000000000, 0x34845a72e47932b7ba33fe8c17c5802f0ceb05303dc14e92f11af6fab5eb953, 0, 0, 0, 0],
  [0x21deea1e4af1062ba93efe0352efdc19ae955b26026863533a2e46316d1347f1, 0x38909eff112cd2b8327c58905a2dc4b4a7df017febde309f081a9d61a4c7f1ac, 0x25faef20adc93a1c38822b444f43bd3cf469cbde60838d3047ec47afcf431742, 0x2fb132fb00e240d8a5b0a475f99bc315187f77bdd3c608ef2652bebc24fc3556, 0x800000000000000000000000000, 0x121fc619b3e7fcda24ff8bd0cee17c9e2fafee35a0484cdb8cb50add6420dd1e, 0, 0, 0, 0],
  [0x1b100273eabdc39ab6b930de7a1f07657123ee48ee9886a1bcd87f091f2f4a78, 0x191f6dca9164be543fc9a191256722a7e7e8118beab9d4d7df39f81373f98c0d, 0x391a12b78ed04aad6f904d65ac7cece9eda941225f2bfea0b7923ca64a33b280, 0x3f1d61eca0b33579e8065a35b8a6bcbf13f5fec55682cf7ff4062174f2506816, 0x100000000000000000000000000, 0x2d35f8dd4cdcc48ea944d1cf7ec1206bcafe2f050e71456bc2722f62e1105e31, 0, 0, 0, 0],
  [0x64f0b0fdee0b7c330e41fdfd7c797fc79b5a3a591e877fc82fb4bd25e0f41f2, 0x2f674360f34ea6500926855af230c649879be05e66409b6774e2595f0bced7d7, 0xf6a39084eb8bd460be93006b3b8782484032b35bd18b8d8208b171fce9b3a55, 0x377689d3fecaed001cc4725371241cd6e2e09bc2e3839d0bd3d6d18697b84d8b, 0x20000000000000000000000000, 0x13d6939fe18f1f24792c2ccf0b84920f41b5ec0e3ff0fc50d2a8324875322499, 0, 0, 0, 0],
  [0x21a9e67035400889cfada8d7acc1da1e13cea889a0636bb7958a2e3f6af8b1b7, 0x9339f5b2003ce393bafdb724e85f0febba0b0eedddc8cda43559a07695d7328, 0x15839d904a713a5ac1c66b0845e42e6667a7c1334fa12ea9523998a16d479cc2, 0x1a20cc9016a23e2880400669ae79ecc3b09bca1a5ed972be6ff7c2aedbec06f3, 0x4000000000000000000000000, 0xce83675475d878e5953296b22c494d10f3df8dcb572730664a2b7ac4a6c4bba, 0, 0, 0, 0],
  [0x25c7871f4c4576938d70ac54d46a9e4e6efbca43eb19ffb1a86c32998a1286fb, 0x1d8b9e03b51ebb979c97b68fda099271b8f3b300d3e9a4b60565937a711fb990, 0x1e405a7fc82bb009986386c7f644fd7335eb290198cc9b5b741569bfae1728ea, 0x3cd39a0888fb23a530d7968c40fb341097fd1012eae479cb1360b6ac0c59b3a2, 0x800000000000000000000000, 0x28302d1606f120f62ff3bd65f4b60b2346ada4f5381e78325d6bed17af9b8066, 0, 0, 0, 0],
  [0x2cc941896ed6f06911902e857eceabbcf711c2fb1200fd5df98cd69b1703f4f5, 0x38db9cc9501648ed92627e3c33bac18a8e9bfa57824efd41e676b7f95e767838, 0x2ce6d7df5f731a3830c6b093970bdab9f8a43564a1b4f8d0d9cfe2d8f8e6d9c1, 0x2e17e9906a698de90e0603ca72f6ae59cd5dc3001b002d7bd1a88bf4fe24a893, 0x100000000000000000000000, 0x19eddcb22297f55ba53ef595456e5fdf099b3e1875f51633aa87b86ae7b084f8, 0, 0, 0, 0],
  [0x11b5693346d8e1810d79d32cce76fe9fc5f213c8a6709ef8a6eeff2feb16050f, 0x127cf657ca9f11a7bf621824e49d0420add9d6adcc5bc59fefb02302f713981, 0x116da1393200866055235c41b0d4f71ea29608d77869d9da427c13f876126d92, 0x2b70df58fe3047bc094164d6ebdb62c4b8caf4df7abcce742a30e2bb2fa94a84, 0x20000000000000000000000, 0x2ee3cd9d52190a26a7d04a310fdb8587f8efb4a424546e821950250417ecf902, 0, 0, 0, 0],
  [0x346e5460a55cc6a721613f1345518c3d00bcd89273ba06bd3df9609befa81383, 0x4ac39f1397021b86039cba9626438978e2020c460372788f6fd5d133eb69a6d, 0x38c6426c9592900a59f8915ec159f72c0e14b2d22eaf89edf3a3f1e0cac785b4, 0x9250ca4c82387478c79afb340ddbf305c33da3a742a031c425d57453579eca2, 0x4000000000000000000000, 0x1de433921a32f902d46d37239dfcfac9fcbece8edffa1ad97dc94c47d4765a76, 0, 0, 0, 0],
  [0x10dd8e42f4ff08769dc6aabea4b34c02e1b905c6ee6557eab759945014c71ed9, 0x2f2bfb1dd3c305ddaf00efe74294ccf3c223d8e262ce7614c816a8466ee0b34a, 0x2a3d6f27563610e044e02e4128a0f2586b0544adf10ede6e3930abb6b9c0f595, 0x5241fafa227ede944d30459fd02c76e61f7e4b65d69b1d28052df38de3f86a1, 0x800000000000000000000, 0x10be95128ead27dc5d00388737af133fce0eeaf6f7adcbc012cf3cb6d0fd4227, 0, 0, 0, 0],
  [0xa5b598f4be87226728a56363119ad03d08d7851fe5da844d9ad0591bd615dd3, 0x10193982cb9a091c98b04eea4c040bc9c34eb1a6b8e7c0ac83728a5200686deb, 0x18f9dc37a7ced6796ed3341aa9a2c909c1fe32d727e92405cde4e0edfc64ec39, 0x2bb7f56476bdf592dc328553b19dcdfdb78dc06aa6edef2e37d373dcf982f0c0, 0x100000000000000000000, 0x1ee8eae3117965fcbe80562248ea16c57f26121a3883d7aaa04a376350cc7819, 0, 0, 0, 0],
  [0x1c48c363fa57926a623e992d71c14638031d2a2ea1c6ac0b67ba904a682ea51f, 0x2b0e341f644fc63ea8abd31d6fa88e8d81287a85708a9cf9733f2874aeee3ef0, 0x3e096d11515a8250a5916aa2517b1cc1c11c9ab516be713f2abbc3ab1f6943d8, 0x1c5d36046f1889d0b8cc83c311bf03c1933dd8c917eeb70f4fbbc58cb15f57bf, 0x20000000000000000000, 0x31024ca04278be529dc6951439219ab6e8594bf31b7b5f67ca35cce48a3aff, 0, 0, 0, 0],
  [0x2ddc8cde4fb108065cdb56d9407de399cca3215803334852478fa927c21fa538, 0x389e1b96710fafeda789bed36ef033ff8d6e4ca1fde6e967bf0587a4d3e0da4f, 0x191680a7f8370f508e698bb43fdc3a31881da3e4ef7c8131bae86307b384966d, 0x306b943a8a5861c28f0dc867acc7497e1ee425934516dd49753f21fa6aa26536, 0x4000000000000000000, 0x108d6cb5ea5d23d493025f2f3c6cc291bd1d4a37c68df2c3142250f846ffba09, 0, 0, 0, 0],
  [0x13156fc2f811b4818af9a808bb760c43d51244868b67d6d9c77ddd232180dea4, 0x3e37a910e225fe26e222dfbe1c2ff391b13964cc78808a984ce689a7fdaa2328, 0x11881eb604277bfe789cb0f8f889ad6c9b7e97b4b33a11b6ab0fc0eadc7bfec7, 0x23bb11a338ad9c7d26aa99faa30e4296e4423e0909e4629e97385c74e86f07df, 0x800000000000000000, 0x327c19b9546348620100e8dd31e4f9f26686be6e30e6cba261f659e63fb7d782, 0, 0, 0, 0],
  [0x1a1da3d65bd5f5366c70194840a02bf76d2485e9b8f8237f804e2d738fc02e87, 0x4d000e55563497955d9e83c98ed6770857e38e0cae9a69d0ab6572cc6252466, 0x32cac1513ba6c3f091e1d1d8c7e3608fbaf814121f206a52303d75afd4cba28a, 0x3b5f1ff6c3af5f71d979cc497e1a039981660e67ac203925dc4afc20db076f32, 0x100000000000000000, 0x379f26efeab541c09670a8c44358f1909f56a22b035cee2bd7845e859050de11, 0, 0, 0, 0],
  [0x20d5e7ea001ec6fee08fc92d7986ac4516d558a0e9e6e7fedad007b359388ee8, 0x2562f8f4bd83638f9d33315ed7ef7d652872a59cb26ff3f07d9132922ad4161b, 0x8a4d9390df03781e23e7e52f16e18ee2f91db9b37a32bb1ededb9355a5a15b0, 0x3a95daa7f49bcbf9bc99e62d7ea395db2eedf5fc5dedff464ccdef3110ffcec2, 0x20000000000000000, 0xff40db48f0ace93b9e360df3edfa7a1026d79727744253c5813d9feb1ad785b, 0, 0, 0, 0],
  [0x821bdcb8ed54d0e4b5b2d8e0de9ceb5670d36a9e831bc96fceef76df791d47e, 0x31e13762d7078a7075f23f29c30f6b9532f4cf313feeb37e259f71e0e6d0915e, 0xca65a17e5d1f8bc9aecf403c21b61da1d6a3e40dda0bbf39637cbef058e89e5, 0x1c3f3e95375a3ae481c37b34fbe5c1389ed7c3922d33a9df80b2b944bc13ea36, 0x4000000000000000, 0x25acd692e1cbb598100f05d1bd0e0387e66058685bcd3f7a6d1b9790a6690d2b, 0, 0, 0, 0],
  [0x3555afa8b7528b3bc706b1eb8629ab901d16dea19c4a57f7f9941a1b4c5ae2eb, 0x30b6787123c50abb9b3af2b995443d55224a2afa4b1aa9423bd5202c9e8dc4d2, 0x2aff327d9d768c4da6bdf4fea7941d2c01317e57beaf3968871491d474b8d2e, 0x2192b476a640bb918f118ea468ebbe6c37bd2fad085338c6bc721233561520ca, 0x800000000000000, 0xe0248d38c1d6dd5db12ec146ad7d55191e3183168436dc7d089b3e2f27d8a5b, 0, 0, 0, 0],
  [0x2a30b12fb8b3000a6ca570652af04e6c052215cb9b86a8d33230f3f157054606, 0x4c8b0ddfbca982002b536228e1d326624b96ed9e208d13d6bb778a45d4ca00, 0x194bcee1e52e911ccd6b70510eb9f034b520fb1d87df59a595ecc1b2e98ff6cb, 0xef25320bfa6d0498c62c674385011df3d96af2041e9110704802a97380fd317, 0x100000000000000, 0x3b9a7c4f87e4f613543ee6c94222889cc5cd402659c553ff4ee58e5d9ee8bf54, 0, 0, 0, 0],
  [0x2d92ad4d4ea03f03dbad62b1bc611f7673843718fee728e9869d4be417b7d29f, 0x19c043d5104976b1475683da64fc8daceb31a377e1a676693be68a55530edac8, 0x136a77e3bd3aa5e7ce1fde9e540974afdf1a918157845ac77630aecc3b6c55e3, 0x2333ed0c893d3c077b93af8c3cf3a0d374160e1b1cf899ecdd35a88d97e78c21, 0x20000000000000, 0x3ab905d6f42c7ed44f32056c88a2705b3bf36409d26495739d4ceec41cad63f6, 0, 0, 0, 0],
  [0x3748d975b118118719925e1df5f85c3cca5e13683e76b98f829d53d564849809, 0x2f86d81cfc6fc90cab5dfce03be4d1c543f78aa5598e61a63a5638d9523c87ef, 0x285b5c1d3f44c9bcb2a2097d04350d2b23a801ee33eefde228158a1a2799d916, 0x556e8617f78860c55563360a9363a08fe999b6deec30f678bcadb4287dee45, 0x4000000000000, 0x2b0c338bf4fbbddfc36d2a7a12fb62ef599455e002fd1eff5bd6afd569d50300, 0, 0, 0, 0],
  [0x2d4af5ca10eacb9aecb91baafb4d3beb0564613bacc961a8e41f25ec493eec0, 0xbe4aac151ab79ec117a270b9b2c2d419145164b33c4a69bbf6581ecd806ac4b, 0x31570585093320f0c6bdeaf13a2a012445b6e69099eb52ad1cf7d26081000678, 0x3f38e1b0cc68e66459af2805c6216d2f80b6f1f2995c076fa68c7366a83b1d90, 0x800000000000, 0x1193ef459884aa0c2d3c1ac15db72eeeb809830f66c1e04a9854a41b9b74d772, 0, 0, 0, 0],
  [0x3738e55e5cf5815e5fa9006c4c49441cf88d26bd798db2ffddc8c42a5abb460e, 0x36acdba58d47243f50c74dc33caaf0f08d29219e42d66ef1b08317b0ae24ddab, 0x2af8aa34195309ddf475ab7aaa7267737c18dfc6d9183b195ab60576f3a35976, 0xc569c0c54bdde9385f92c29a39db941a474f48beaf00c64a266b62021af9ecd, 0x100000000000, 0x2e3a4838f2ae2885143796ef975caf7e928a7df8782e51b5497b5b8b28dee948, 0, 0, 0, 0],
  [0x1cc86b88a4cebb11d63268645cf9b784933b878795e09204f53d8ba6b4805cc3, 0x2c8aecad004c66c6a65419319e27c897999e24e049daeb59cca5ed3cacc7220, 0x412c05b2d79205a961a7e4c9fb0dcb6b4ad97536eca15252eb54831ececab17, 0x6893d950350d56b639838b42473acf056b0db305158cfaa316d9f7b571a197d, 0x20000000000, 0xe0ae69acaeba16d7d58ffc57e7696fa22019bd68c875cbab983f9f8d38d0296, 0, 0, 0, 0],
  [0x154866f4b2ab973a5ba4c35d72a79cb7efb0f82be73f4e0229806881cfc2a739, 0x1cb7f7ccb4de2b795f1db401cf4ed6ad4a9199d5f78c021925c663da662787d9, 0x3b03e83573dd13c679bb00804666036c71a1781de12ed3a6982a6870574ff096, 0x335490b191bfc4b0a50bfcc78e85cd2170adcf20c11d6b230a75c63dc2cbb4b6, 0x4000000000, 0x228184889518c8e1bad1629f6009e3edec9f714b42de74de59143c7ceeb4126, 0, 0, 0, 0],
  [0x3576c6a0cf3f6e4ddab7159d58ad2501c38b45909ab5a0906e7ef1d04f0f90, 0x10d301eceed5e5c27347b0744c4741d1c4d6c86b59353acd690b80d0b5675c1, 0x1e91d00c984cb8e779b9b9c25b84d12399be6421cf9a2062c1a9ffba996f45a8, 0x7dc20e66303599da9794b0939a82d420629b5d1a54bb941275eadd7fefd1619, 0x800000000, 0xb23a5b8acd27c6e17a5e5740b483a7633c107e561111d12b07866024e8c43a6, 0, 0, 0, 0],
  [0x77d33c0091c0c049feaaca1dc39ec70f6fa4acfd0af8293cb4120192507b168, 0x32053f24db41755da1f4064a5dee6c3f3f2ec7cdacbb7c9a7c5a3eb158561034, 0x1fb6391e86da9eb0ab728d4b0c540c9cf00abe6f2f8cd48850f7d002ee814ae2, 0x1ea9ed371347a24accea3406aa4e56de76eb7d55e8a7f3f1778ae17bde6ddee5, 0x100000000, 0x2a658e4cca35ecc6cbd407d4ad004f8f201fc709ca8a2d6de65cf3c03254d586, 0, 0, 0, 0],
  [0x2e3f313a90eb5d334bbf6f75cbf060887372ee3cd3949394f817dbc50ad3c87, 0x2bcd3569ad1e59c07fe6de874ef953c1ea7bf2aeb63d77b3df8d01517e2571c9, 0xe5999978be6fd9407a0c3c483880e3d0562b3981a3d3ceadc3bad810f11af33, 0x13f520a1c022e80f043d20de4fc3d6a097f381a741f70b405afb4dc8dfddc29d, 0x20000000, 0xc7cbd7df8033cc16a43a4a7bb15958fe68330c1e8465da836fc23ec10aa3ba6, 0, 0, 0, 0],
  [0x173dc84672fa04bab8d625c038d739b4cc68c0e932ca7f03a44fae2b1b8a0201, 0x209db6f3fe78da9b58cbb7258fab975a478427a647e216b5bdfecb6444bad680, 0x10a351f1f82c62534196e6565b9d8af31c4611e91691bad55f2fc7fa12d62a0c, 0x13f0050a61e201b5af66e21eef7d2eb46e6639c44616ad7ed0152fefe57dff66, 0x4000000, 0x1a0d5fca1f3877db4fc2371130ec74c48d420db7b1f7a5e081c67febc5e9f68f, 0, 0, 0, 0],
  [0xb6d0e7d8e91f7b3710ee9fd9f85dc43073fad8bec301b60abcc77ccd8a2bf1a, 0x10c4ea0eb3971694920f1b304c00035a917ad0484cc6f751cc75e1b6e809aa51, 0x2271eb246ea5359bed0fcde272e1677a48447f75692ce7d1dbc5742f9e4d75b3, 0x22833b0724a7d2775b7e4f74b32cd239a46a9ed6e5d0045b744506b3016535ae, 0x800000, 0xbdad9c136a4b0ead58bb11f4f31e1528622f25e1ef3c640921682cd65efee17, 0, 0, 0, 0],
  [0x1e1dbdc6afa96e8ab5e705b85de078d11a3fe4e7462d7547068adafcc35f6ab4, 0x28e564f79a9b34f5c708d9af6ba1942296deaa72d0245542a1a64fe611fa7646, 0x2e10044ceee9638795459fb3e6aecf03bf9baaea21734c62c9fca3abb8ae5160, 0x17cf4c90bd84fde1a0bd1960afebd2c0e62a9f3ebec8f8784b89efc0be8eb471, 0x100000, 0xf4b47df7adc13340462db596e269ae4c9a1261320f694b696901f81d55f4778, 0, 0, 0, 0],
  [0x2716c73ea5a5d2aa12b4414434ca088856b7da1976e711e949b12dfd6712f2a2, 0x2cf5c008a4797da6e3ddfd4904f06bed0adf1b720ce2302c9d3f0d531e6c3b6, 0x1aba12e3693b335aa6e556d68476e2ca4f3c3b2b0d632d7a7927dc9f49d7c286, 0x225b620d91c2236e6aed1b585ba6dd6dadebe1a054f3a75f40e4dbb48334da02, 0x20000, 0x27bf28ab8799adf481b92a6270118020b1dfbe278478bdfa945885541c2d7511, 0, 0, 0, 0],
  [0x99de2bc8eb9c34365cbf02da5dab12fb19be97b5e433939bcfc6e43f31e64ad, 0xdcb9509118814b7c703410bb490522ccc2487acc93c4df4dd1aedad1226206a, 0x124ae8d063f05d88ef03bd8790ae27b571da7f16b3119d24c7e81ce0e40c69ca, 0x390c90b85c32d3d16e11c972d0a93c17ff929cd1f3d75281a077cce30b80885, 16384, 0x1fb8ea52e410fe36527ac93f5b0c8c03350f73979906e804bf74e7512fac0a68, 0, 0, 0, 0],
  [0x102d0147256181588302a97950929907531d17dc86947abaff5c97ec06bd41fa, 0xfb7e83f907885bc3648e9b08f64e8d169e65c0cabc9bcb856108d5b7ad7c045, 0x357ce4d38b0c3da21c39aeb7c843a7b9b523c593f349ffce911780adc1fb243a, 0xc390859f82e0fb76751c83f19776d1d0a4aa14839a278c4a4eaf27f59806167, 2048, 0x2f7660654bf8d340f136fd0978b1636d5ad81a2677299c1f7d1c97c086ac0c8a, 0, 0, 0, 0],
  [0x37695ab1e75982415ef305fadbf4bf40730ace246132858637877427980f3602, 0x24048a4d077e40ee5eba90c3b0c10a9f7a12b5d0c8223afb9eddfcf0bc14c186, 0xc7a07cb618b189a7399ab2cec878bd4ea5a95476cd70f6fcda48cb8776a4cc2, 0x180c1e07dd9740f61409a20ac3274d2061a4234d00390ce16fbf39dece4fb61a, 256, 0xcaf0107b03889c807dabb9b2922a1eb531d875ed485ee60b26c88cc082f827d, 0, 0, 0, 0],
  [0x45587513fd1ec55b25119391a022fda6d9b9de007ef66e3251a309ca6c67813, 0x10fe8cf4fa5cde44078dfde176f6e13d377b7df6801adb65fad64fa7537e9da5, 0x304348ae664f251157df4b54600e78dfbc543e7ee361f277d4bd8a1ea5966db2, 0x1e75f9d82bf87dab3e879172cb3a7ac5fc60a0b212a8092e2868da7277318c98, 32, 0x2782789b0b03d0ce8925e0f4fb3f6038863fb266efbfa2d1c4a403b8dc7a9c01, 0, 0, 0, 0],
  [0x9d1acc7007c754accc126a589b305219b8775817f9ea4fde151ccd4f0de8c9, 0x1554205bbd25dbbfcdd87e5c57674311d4a7ea44a8a074daa86ddb95fd26ba4f, 0x212cfcaf6a39894bb9d4c0f970a060880c75f60d7556a9e6606b588c90e8b159, 0x14dc02c4f879459f015b351376e6e112a0f8b3264d76c1f697046a519c33a93b, 4, 0x311f9631be8ee4fe4497dce38a4a6af13f1a4149397d9d26a12d9ceb114dd52b, 0, 0, 0, 0],
  [0, 0, 0, 0, 0, 0, 0, 0, 0, 0]]

/-- p - 1 times (-1, 2): the last addition. -/
def top1 : List (List Nat) := [
  [0x9d1acc7007c754accc126a589b305219b8775817f9ea4fde151ccd4f0de8c9, 0x1554205bbd25dbbfcdd87e5c57674311d4a7ea44a8a074daa86ddb95fd26ba4f, 0x212cfcaf6a39894bb9d4c0f970a060880c75f60d7556a9e6606b588c90e8b159, 0x14dc02c4f879459f015b351376e6e112a0f8b3264d76c1f697046a519c33a93b, 0x39ee910771fff8c5041dcae8098a5bca0c20df88866c3d2414196ca8a33c14bd, 0x3f48f8d1304fe2bbebab7ede71b35df9bb4cfc483d2f12f8b2259da0f1427569, 0x1f458a5ebea3a5b60a87d65069e794e6cc5e07672257c5e011653512f420daea, 0x8098436e95073348f6669b8d359e7aa597fbd89628aa8310b56a266f5a2bddb, 0, 0],
  [0, 0, 0x6623f0c9147ee7b4bb543e872ebd9ce8a954ad1c2a702ee035ea9805147262e, 0x12eb166a5d161217cc1ab43e1fc0cc36b9bdc3be8af0b32e9a9ffccf42cfa8b6, 0, 0, 0, 0, 0, 0]]

/-- p - 1 times (-1, 2): the lookups. -/
def top2 : List (List Nat) := [
  [0, 0, 0, 0, 0, 0, 0, 0, 0, 0x3ffffffffffffffffffffffffffffffff],
  [0, 0, 0, 0, 0, 0, 0, 0, 0, 0xffffffffffffffffffffffffffffff],
  [0, 0, 0, 0, 0, 0, 0, 0, 0, 0x3fffffffffffffffffffffffffff],
  [0, 0, 0, 0, 0, 0, 0, 0, 0, 0xfffffffffffffffffffffffff],
  [0, 0, 0, 0, 0, 0, 0, 0, 0, 0x3ffffffffffffffffffffff],
  [0, 0, 0, 0, 0, 0, 0, 0, 0, 0xffffffffffffffffffff],
  [0, 0, 0, 0, 0, 0, 0, 0, 0, 0x3fffffffffffffffff],
  [0, 0, 0, 0, 0, 0, 0, 0, 0, 0xfffffffffffffff],
  [0, 0, 0, 0, 0, 0, 0, 0, 0, 0x3ffffffffffff],
  [0, 0, 0, 0, 0, 0, 0, 0, 0, 0xffffffffff],
  [0, 0, 0, 0, 0, 0, 0, 0, 0, 0x3fffffff],
  [0, 0, 0, 0, 0, 0, 0, 0, 0, 0xfffff],
  [0, 0, 0, 0, 0, 0, 0, 0, 0, 1023],
  [0, 0, 0, 0, 0, 0, 0, 0, 0, 0]]

/-- p - 1 times (-1, 2): the checks. -/
def top3 : List (List Nat) := [
  [0, 0, 0, 0, 0, 0, 0x40000000000000000000000000000000224698fc094cf91b992d30ed00000000, 0, 4, 0],
  [0, 0, 0, 0, 0, 0, 0x3ffffffffffffffffffffffffffffffff, 0, 1, 0],
  [0, 0, 0, 0, 0, 0, 0, 0x4000000000000000000000000000000, 0x20000000000000000000000000000000, 0]]

def fiveOut : Nat × Nat := (0x330aaaecedffbd4ccd1e2d490ddb9ffdb3d7db2a600cb15d46fb61f4fd700ed1, 0x470a2a2a4ab53eedb1671ab21adb4b908f751349a7926d827446ca1e8709285)

def sixOut : Nat × Nat := (0x5076391b23ae1f01fa981fb205cb99f433c8d8fdb674b8436e77dd4f3c624eb, 0x250aa777e538185183d552f0ee4025670bfe94c704509cedc67bd2c943571eae)

def thousandOut : Nat × Nat := (0x4cb2332bdcd3f105f3b487fa2b9632a0296878ec2fc8b215ec81c18e36b805e, 0x433f2b04c1c50355f17afe30d2acb11d55ab2d4cb794a32301a77b8e888c1d)

def topOut : Nat × Nat := (0x6623f0c9147ee7b4bb543e872ebd9ce8a954ad1c2a702ee035ea9805147262e, 0x12eb166a5d161217cc1ab43e1fc0cc36b9bdc3be8af0b32e9a9ffccf42cfa8b6)

end Verif.Lemmas.Ecc
