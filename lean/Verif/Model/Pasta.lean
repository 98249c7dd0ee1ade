import Verif.Model.Pow5
import Mathlib.Data.ZMod.Basic
import Mathlib.Data.Fin.VecNotation

/-!
`P128Pow5T3`: the parameters of Poseidon for the fields of Pallas and Vesta in
halo2_gadgets/src/poseidon/primitives/p128pow5t3.rs, fp.rs and fq.rs. Transcribed by a script.
-/

namespace Verif.Gadget

/-- The modulus of `pallas::Base`. The crate `pasta_curves` that defines it is not in the repository; the number is from its
documentation. -/
def pallasBase : Nat := 28948022309329048855892746252171976963363056481941560715954676764349967630337

/-- The modulus of `vesta::Base`, as above. -/
def vestaBase : Nat := 28948022309329048855892746252171976963363056481941647379679742748393362948097

/-- `from_raw`: limbs of 64 bits, the lowest first. -/
def fromRaw (p : Nat) (a b c d : Nat) : ZMod p := ((a + 2 ^ 64 * b + 2 ^ 128 * c + 2 ^ 192 * d : Nat) : ZMod p)

/-- Models `ROUND_CONSTANTS`, fp.rs lines 13-1294. -/
def pallasConstants : List (Fin 3 → ZMod pallasBase) := [
  ![fromRaw pallasBase 0x57538c2596426303 0x4e71162f31003b70 0x353f628f76d110f3 0x360d7470611e473d,
    fromRaw pallasBase 0xbdb74213bf63188b 0x4908ac2f12ebe06f 0x5dc3c6c5febfaa31 0x2bab94d7ae222d13,
    fromRaw pallasBase 0x939d92753cc5dc8 0xef77e7d736766c5d 0x2bf03e1a29aa871f 0x150c93fef652fb1c],
  ![fromRaw pallasBase 0x14259dce537782b2 0x3cc0a60141e894e 0x955d55db56dc57c1 0x3270661e68928b3a,
    fromRaw pallasBase 0xce9fb9ffc345afb3 0xb407c370f2b5a1cc 0xa0b7afe4e2057299 0x73f116f04122e25,
    fromRaw pallasBase 0x8ebad76fc71554d8 0x55c9cd2061ae93ca 0x7affd09c1f53f5fd 0x2a32ec5c4ee5b183],
  ![fromRaw pallasBase 0x2d8ccbe292efeead 0x634d24fc6e2559f2 0x651e2cfc740628ca 0x270326ee039df19e,
    fromRaw pallasBase 0xa068fc37c182e274 0x8af895bce012f182 0xdc100fe7fcfa5491 0x27c6642ac633bc66,
    fromRaw pallasBase 0x9ca18682e26d7ff9 0x710e1fb6ab976a45 0xd27f57396989129d 0x1bdfd8b01401c70a],
  ![fromRaw pallasBase 0xc832d824261a35ea 0xf4f6fb3f9054d373 0x14b9d6a9c84dd678 0x162a14c62f9a89b8,
    fromRaw pallasBase 0xf79824667b5b6bec 0xac0a1fc71e2cf0c0 0x2af6f79e3127feea 0x2d193e0f76de586b,
    fromRaw pallasBase 0x5d0bf58dc8a4aa94 0x4feff82984990ff8 0x81696ef1104e674f 0x44ca3cc4a85d73b],
  ![fromRaw pallasBase 0x6198785f0cd6b9af 0xb8d9e2d4f314f46f 0x1d0453416d3e235c 0x1cbaf2b371dac6a8,
    fromRaw pallasBase 0x343e07610f3fede5 0x293c4ab038fdbbdc 0xe6c49d061b6b5f4 0x1d5b2777692c205b,
    fromRaw pallasBase 0xf60e971b8d73b04f 0x6a9adb0c1e6f962 0xaa30535bdd749a7e 0x2e9bdbba3dd34bff],
  ![fromRaw pallasBase 0x35a13661f22418b 0xde40fbe26d047b05 0x8bd5bae36969299f 0x2de11886b18011ca,
    fromRaw pallasBase 0xbc998884ba96a721 0x2ab9395c449be947 0xd5b4a3f1841dcd8 0x2e07de1780b8a70d,
    fromRaw pallasBase 0x825e4c2bb74925ca 0x250440a99d6b8af3 0xbbdb63dbd52dad16 0xf69f1854d20ca0c],
  ![fromRaw pallasBase 0x816c059422dc705e 0x6ce5113507f96de9 0xd135dc639fb09a4 0x2eb1b25417fe1767,
    fromRaw pallasBase 0xb8b1bdf4953bd82c 0xff36c661d26cc42d 0x8c24cb44c3fab48a 0x115cd0a0643cfb98,
    fromRaw pallasBase 0xde801612311d04cd 0xbb57ddf14e0f958a 0x66d7378b999868b 0x26ca293f7b2c462d],
  ![fromRaw pallasBase 0xf5209d14b24820ca 0xf160bf9f71e967f 0x2a830aa162412cd9 0x17bf1b93c4c7e01a,
    fromRaw pallasBase 0x5c86f2e7dc293c5 0xe03c0354bd8cfd38 0xa24f8456369c85df 0x35b41a7ac4f3c571,
    fromRaw pallasBase 0x72ac156af435d09e 0x64e14d3beb2dddde 0x435927994849bea9 0x3b1480080523c439],
  ![fromRaw pallasBase 0x271618d874b14c6d 0x8e286442a2d3eb2 0x4950856dc907d575 0x2cc6810031dc1b0d,
    fromRaw pallasBase 0x91f318c09f0cb566 0x9e517aa93b78341d 0x59618e2afd2ef99 0x25bdbbeda1bde8c1,
    fromRaw pallasBase 0xc6313487073f7f7b 0x2a5ed0a27b61926c 0xb95f33c25dde8ac0 0x392a4a8758e06ee8],
  ![fromRaw pallasBase 0xe7bbcef02eb5866c 0x5e6a6fd15db89365 0x9aa6111f4de00948 0x272a55878a08442b,
    fromRaw pallasBase 0x9b925b3c5b21e0e2 0xa6ebba011694dd12 0xefa13c4e60e26239 0x2d5b308b0cf02cdf,
    fromRaw pallasBase 0xef38c57c311673ac 0x44dff42f18b46c56 0xdd5d293d72e2e5f2 0x16549fc6af2f3b72],
  ![fromRaw pallasBase 0x9b7126d9b46860df 0x7639826534420311 0xfa69c3a2ad52f76d 0x1b10bb7a82afce39,
    fromRaw pallasBase 0x90d27f6a00b7dfc8 0xd1b36968ba0405c0 0xc79c2df7dc98a3be 0xf1e7505ebd91d2f,
    fromRaw pallasBase 0xff457756b819bb20 0x797fd6e3f18eb1ca 0x537a7497a3b43f46 0x2f313faf0d3f6187],
  ![fromRaw pallasBase 0xf0bc3e732ecb26f6 0x5cad11ebf0f7ceb8 0xfa3ca61c0ed15bc5 0x3a5cbb6de450b481,
    fromRaw pallasBase 0x865527cbca915982 0x51baa6e20f892b62 0xd92086e253b439d6 0x3dab54bc9bef688d,
    fromRaw pallasBase 0x368045acf2b71ae3 0x4c24b33b410fefd4 0xe280d31670123f74 0x6dbfb42b979884d],
  ![fromRaw pallasBase 0xa7fc32d22f18b9d3 0xb8d2de72e3d2c9ec 0xc6f039ea1973a63e 0x68d6b4608aae810,
    fromRaw pallasBase 0x2b5dfcc5572555df 0xb868a7d7e1f1f69a 0xee258c9b8fdfccd 0x366ebfafa3ad381c,
    fromRaw pallasBase 0xe6bc229e95bc76b1 0x7ef66d89d044d022 0x4db3024f41d3f56 0x39678f65512f1ee4],
  ![fromRaw pallasBase 0xe534c88fe53d85fe 0xcf82c25f99dc01a4 0xd58b7750a3bc2fe1 0x21668f016a8063c0,
    fromRaw pallasBase 0x4bef429bc5331608 0xe34dea56439fe195 0x1bc749363e98a768 0x39d00994a8a5046a,
    fromRaw pallasBase 0x770c956f60d881b3 0xb163d41605d39f99 0x6b203bbe12fb3425 0x1f9dbdc3f8431263],
  ![fromRaw pallasBase 0x9794a9f7c336eab2 0xbe0bc829fe5e66c6 0xe5f17b9e0ee0cab6 0x27745a9cddfad95,
    fromRaw pallasBase 0x52025657abd8aee0 0x2fa43fe20a45c78d 0x788d695c61e93212 0x1cec0803c504b635,
    fromRaw pallasBase 0xd3872a9559a03a73 0xed5082c8dbf31365 0x72077448ef87cc6e 0x123523d75e9fabc1],
  ![fromRaw pallasBase 0x1779e3a1d357f4 0x27feba35975ee7e5 0xf419b848e5d694bf 0x1723d1452c9cf02d,
    fromRaw pallasBase 0x9dab1ee4dcf96622 0x21c3f776f572836d 0xfcc0573d7e613694 0x1739d180a16010bd,
    fromRaw pallasBase 0x70290452042d048d 0xfafa96fbeb0ab893 0xacce32391794b627 0x2d4e6354da9cc554],
  ![fromRaw pallasBase 0x670bcf6f8b485dcd 0x8f3bd43f99260621 0x4a869553c9d007f8 0x153ee6142e535e33,
    fromRaw pallasBase 0xd258d2e2b7782172 0x968ad4424af83700 0x635ef7e7a430b486 0xc45bfd3a69aaa65,
    fromRaw pallasBase 0xe5633d251f73307 0x6897ac0a8ffa5ff1 0xf2d56aec83144600 0xadfd53b256a6957],
  ![fromRaw pallasBase 0xac9d36a8b7516d63 0x3f87b28f1c1be4bd 0x8cd1726b7cbab8ee 0x315d2ac8ebdbac3c,
    fromRaw pallasBase 0x299ce44ea423d8e1 0xc9bb60d1f6959879 0xcfaec23d2b16883f 0x1b8472712d02eef4,
    fromRaw pallasBase 0xc4a5404198adf70c 0x367d2c54e36928c9 0xbd0b70fa2255eb6f 0x3c1cd07efda6ff24],
  ![fromRaw pallasBase 0xbbe523aef9ab107a 0x4a16073f738f7e0c 0x687f4e51b2e1dcd3 0x136052d26bb3d373,
    fromRaw pallasBase 0x676c36c24ef967dd 0x7b3cfbb873032681 0xc1bdd859a1232a1d 0x16c96beef6a0a848,
    fromRaw pallasBase 0x67eec7f2d6340c4 0x12387bab4f1662d 0x2ab7fed8f499a9fb 0x284b38c57ff65c26],
  ![fromRaw pallasBase 0xaf1dff204c922f86 0xfc06772c1c0411a6 0x39e242198897d17c 0xc5993d175e81f66,
    fromRaw pallasBase 0xbbf53f67b1f87b15 0xf24887ad48e17759 0xfcda655d1ba9c8f9 0x3bf7a3f7bd043da,
    fromRaw pallasBase 0x9b5cd09e36d8be62 0x4c8f9cbe69f0e827 0xb0cf999567f00e73 0x3188fe4ee9f9fafb],
  ![fromRaw pallasBase 0xafea99a2ec6c595a 0x3af5bf77c1c42652 0x5a39768c480d61e1 0x171f528ccf658437,
    fromRaw pallasBase 0x5a0563b9b8e9f1d5 0x812c3286ee700067 0x196e41859b35ef88 0x12f4175c4ab45afc,
    fromRaw pallasBase 0xe74d4d369118b79 0x7e23e1aabe96cfab 0x8f8fdcf800a9ac69 0x3a509e155cb7ebfd],
  ![fromRaw pallasBase 0x98712c65678cfd30 0x984bc8f2e4c1b69e 0x1a89920e2504c3b3 0x10f2a685df4a27c8,
    fromRaw pallasBase 0xe8a16728cc9d4918 0x54573c9333c56321 0x1d8d93d54ab91a0e 0x9e5f49790c8a0e2,
    fromRaw pallasBase 0x609a740347cf5fea 0x42d17ed6ee0fab7e 0x2bf35705d9f84a34 0x352d69bed80ee3e5],
  ![fromRaw pallasBase 0x3a758af6fa84e0e8 0xc634debd281b76a6 0x491562faf2b190d3 0x58ee73ba9f3f293,
    fromRaw pallasBase 0x621a132510a43904 0x92cb92119bc76be 0xcd0f1fc55b1a3250 0x232f99cc911eddd9,
    fromRaw pallasBase 0xc3b97c1e301bc213 0xf9efd52ca6bc2961 0x86c22c6c5d4869f0 0x201beed7b8f3ab81],
  ![fromRaw pallasBase 0xbf6b3431ba94e9bc 0x29388842744a1210 0xa1c9291d58602f51 0x1376dce6580030c6,
    fromRaw pallasBase 0x6454843c5486d7b3 0x72ba8b02d92e722 0x2b3356c38238f761 0x1793199e6fd6ba34,
    fromRaw pallasBase 0x6a3f1d3b433311b 0x3c66160dc62aacac 0x9fee9c20c87a67df 0x22de7a7488dcc735],
  ![fromRaw pallasBase 0x30d6e3fd516b47a8 0xdbe0b77fae77e1d0 0xdf8ff37fe2d8edf8 0x3514d5e9066bb160,
    fromRaw pallasBase 0x19377427137a81c7 0xff453d6f900f144a 0xf919a00dabbf5fa5 0x30cd3006931ad636,
    fromRaw pallasBase 0x5b6a74220692b506 0x8f9e4b2cae2ebb51 0x41f81a5cf613c8df 0x253d1a5c52934127],
  ![fromRaw pallasBase 0x73f666cb86a48e8e 0x851b3a59c990fafc 0xa35e9613e7f5fe92 0x35b461c02d79d19,
    fromRaw pallasBase 0x7cfbf86a3aa04780 0x92b1283c2d5fccde 0x5bc00eedd56b93e0 0x23a9928079d175bd,
    fromRaw pallasBase 0xf1e4ccd73fa00a82 0xb5e2ea3436eef957 0xf1594a0763c611ab 0x13a7785ae134ea92],
  ![fromRaw pallasBase 0xbbf04f5252de4279 0x3889c57863446d88 0x4962ae3c0da17e31 0x39fce308b7d43c57,
    fromRaw pallasBase 0x3b57e34489b53fad 0xbef00a08c6ed38d2 0xc0fdf01662f60d22 0x1aae18833f8e1d3a,
    fromRaw pallasBase 0x55513e033398513f 0x27c1b3fd8f85d8a8 0x8b2e80c064fd83ed 0x1a761ce82400af01],
  ![fromRaw pallasBase 0x5244ca749b73e481 0xdcf6af2830a50287 0x16dd1a87ca22e1cc 0x275a03e45adda7c3,
    fromRaw pallasBase 0x58a253cfb6a95786 0x7e561453fc5648b 0xeb08e47e5feabcf8 0x2e5a10f08b5ab8bb,
    fromRaw pallasBase 0xe033d82cefe78ce3 0xc141a5b6d594bec4 0xb84e9c333b2932f1 0x1459cb8587208473],
  ![fromRaw pallasBase 0x5cec7e7b338fbe1b 0x52f9332fbffcfbbd 0x7b92ce810e14a400 0x193ae5921d78b5de,
    fromRaw pallasBase 0x60224be67248e82c 0x374384f4a0728205 0x89111fb2c4660281 0x3097898a5d0011a4,
    fromRaw pallasBase 0x549980de862930f5 0x1979b2d1c465b4d9 0x571782fd96ce54b4 0x378d97bf8c864ae7],
  ![fromRaw pallasBase 0x37ea32a971d17884 0xdbc7f5cb46093421 0x88136287ce376b08 0x2eb04ea7c01d97ec,
    fromRaw pallasBase 0xead3726f1af2e7b0 0x861cbda476804e6c 0x2302a1c22e49baec 0x36425347ea03f641,
    fromRaw pallasBase 0xecd627e59590d09e 0x3f5b5ca5a19a9701 0xcc996cd85c98a1d8 0x26b72df47408ad42],
  ![fromRaw pallasBase 0x59bece31f0a31e95 0xde01212ee4588f89 0x1f05636c610b89aa 0x130180e44e2924db,
    fromRaw pallasBase 0x9ea8e7bc79263550 0xdf7793cc89e5b52f 0x73275acaed5f579c 0x219e97737d3979ba,
    fromRaw pallasBase 0x9c12635df251d153 0x3b0672dd7d42cbb4 0x3461363f81c489a2 0x3cdb93598a5ca528],
  ![fromRaw pallasBase 0x2861ce16f219d5a9 0x4ad0447045a7c5aa 0x20724b927a0ca81c 0xe59e6f332d7ed37,
    fromRaw pallasBase 0x43b0a3fcff2036bd 0x172cc07b9d33fbf9 0x3d7369467222697a 0x1b064342d51a4275,
    fromRaw pallasBase 0x3eb310228a0e5f6c 0x78fa9fb9171221b7 0x2f363c55b2882e0b 0x30b82a998cbd8e8a],
  ![fromRaw pallasBase 0xe46f6d4298740107 0x8ad71ea715be0573 0x63df7a76e858a4aa 0x23e4ab37183acba4,
    fromRaw pallasBase 0xfca995e2b59914a1 0xacfe14640de044f2 0x5d33094e0beda75b 0x2795d5c5fa428022,
    fromRaw pallasBase 0xc26d909dee8b53c0 0xa6687c3df16c8fe4 0xd765f26dd03f4c45 0x3001ca401e89601c],
  ![fromRaw pallasBase 0xe7fea6bdf3471380 0xe84b5bebae4e501d 0xf7bf86e89280827f 0x72e45cc676b08e,
    fromRaw pallasBase 0xd0c54ddeb26b86c0 0xb64829e2d40e41bd 0xe2abe4c518ce599e 0x13de705484874bb5,
    fromRaw pallasBase 0x38915b432a9959a5 0x82bb18e5af1b05bb 0x315950f1211defe8 0x408a9fcf9d61abf],
  ![fromRaw pallasBase 0x34070cbee26886a0 0xae4d23b0b41be9a8 0xbb4e4a1400ccd2c4 0x2780b9e75b55676e,
    fromRaw pallasBase 0x9405592098b4056f 0xdc4d8fbefe24405a 0xf80333ec85634ac9 0x3a570d4d7c4e7ac3,
    fromRaw pallasBase 0x78d2b247899520b4 0xe2cc1507bebdcc62 0xf347c247fcf09294 0xc13cca7cb1f9d2c],
  ![fromRaw pallasBase 0x2e8c88f7707470e0 0xb50bb2eb82df74d 0xd2614a197c6b794b 0x14f59baa03cd0ca4,
    fromRaw pallasBase 0xbe52476e0a16f3be 0xa51d54ede66167f5 0x6f546e1704c39c60 0x307defee925dfb43,
    fromRaw pallasBase 0x380b67d80473dce3 0x661106836adfe5e7 0x7a07e7674b5a2621 0x1960cd511a91e060],
  ![fromRaw pallasBase 0x15aaf1f7712589dd 0xb8ee335d88284cbe 0xca2ad0fb56672500 0x2301ef9c63ea84c5,
    fromRaw pallasBase 0x5e68478c4d6027a9 0xc86182d1b4246b58 0xd10f4cd52be97f6b 0x29a5a47da79a488,
    fromRaw pallasBase 0x2cc4f962eaae2260 0xf97fe46b6a925428 0x2360d17d890e55cb 0x32d7b16a7f11cc96],
  ![fromRaw pallasBase 0xc0cab915d5363d9f 0xa5f2404cd7b35eb0 0x18e857a98d498cf7 0x26703e48c03b81ca,
    fromRaw pallasBase 0xf691123ae112b928 0xf44388bd6b89221e 0x88ac8d25a24603f1 0x48682a35b3265bc,
    fromRaw pallasBase 0x3ab7defcb8d803e2 0x91d6e1715164775e 0xd72cddc6cf06b507 0x6b1390441fa7030],
  ![fromRaw pallasBase 0xbcd795414a6e2e86 0x43b360f6386a86d7 0x1689426dce05fcd8 0x31aa0eeb868c626d,
    fromRaw pallasBase 0xed77f5d576b99cc3 0x90efd8f41b2078b2 0x57abad3764c104b 0x239464f75bf7b6af,
    fromRaw pallasBase 0xb2cb487307c1cecf 0xa5cc47c59654b2a7 0xa45e19ed813a54ab 0xa64d4c04fd426bd],
  ![fromRaw pallasBase 0x1f7315322f658735 0x777c7a921a062e9d 0x576a4ad259860fb1 0x21fbbdbb73670734,
    fromRaw pallasBase 0x674324003fc52146 0x5b86d29463d31564 0xd9371ca2eb95acf3 0x31b86f3cf01705d4,
    fromRaw pallasBase 0x7045f48aa4eb4f6f 0x13541d65157ee1ce 0x5ef1736d09056f6 0x2bfde53354377c91],
  ![fromRaw pallasBase 0x5a13a58d20011e2f 0xf4d5239c11d0eafa 0xd558f36e65f8eca7 0x1233ca936ec24671,
    fromRaw pallasBase 0x6e70af0a7a924b3a 0x878058d0234a576f 0xc437846d8e0b2b30 0x27d452a43ac7dea2,
    fromRaw pallasBase 0xa02576b94392f980 0x6a30641a1c3d87b2 0xe816ea8da493e0fa 0x2699dba82184e413],
  ![fromRaw pallasBase 0x608c6f7a61b56e55 0xf18584664f8cab49 0xc3988baee42e4b10 0x36c722f0efcc8803,
    fromRaw pallasBase 0x6e49ac170dbb7fcd 0x85c38899a7b5a833 0x8b0f2ec89ccaa37 0x2b3ff48861e339b,
    fromRaw pallasBase 0xa8c5ae03ad98e405 0x6fc3ff4c49eb59ad 0x60162f4427bc657b 0xb70d061d58d8a7f],
  ![fromRaw pallasBase 0x2e06cc4af33b0a06 0xad3de8be46ed9693 0xf8753adeb9d7cee2 0x3fc2a13f127f96a4,
    fromRaw pallasBase 0xc12080ac117ee15f 0xcb3d621e171d80 0x1bd63434ac8c419f 0xc41a6e48dd23a51,
    fromRaw pallasBase 0x9685213e9692f5e1 0x72aaad7e4e75339d 0xed4476537169084e 0x2de8072a6bd86884],
  ![fromRaw pallasBase 0xad01184567b027c 0xb81cf735cc9c39c0 0x9d3496a3d9fe05ec 0x3557a8f7b38a17f,
    fromRaw pallasBase 0x45bcb5ac00826abc 0x60f43363d818e54 0xee976d34282f1a37 0xb5f59552f498735,
    fromRaw pallasBase 0x2f2909e17e22b0df 0xf5d646e57507e548 0xfedbb18570dc7300 0xe2923a5fee7b878],
  ![fromRaw pallasBase 0xf71eed73f15b3326 0xcf1cb37c3b032af6 0xc787be97020a7fdd 0x1d785005a7a00592,
    fromRaw pallasBase 0xacfbfb223f8f00d 0xa590b88a3b060294 0xba5fedcb8f25bd2 0x1ad772c273d9c6df,
    fromRaw pallasBase 0xc1ce13d60f2f5031 0x810510eb61f0672d 0xa78f3275c278234b 0x27bd64785fcbd2a],
  ![fromRaw pallasBase 0x8337f5e07923a853 0xe224313469457b8e 0xce6f8ffea1031b6d 0x20800f441b4a0526,
    fromRaw pallasBase 0xa33d7bed89a4408a 0x36cdc8eed662ad37 0x6eea2cd49f4312b4 0x3d5ad61d7b65f938,
    fromRaw pallasBase 0x3bbbae94cc195284 0x1df96cc03ea4b26d 0x2c5f91be4dd8e3d 0x13338bc351fc46dd],
  ![fromRaw pallasBase 0xc5271c297852819e 0x646c49f9b46cbf19 0xb87db1e2af3ea923 0x25e52be507c92760,
    fromRaw pallasBase 0x5c380ab701b52ea9 0xa34c83a3485c6b2d 0x71096d8b1b983c98 0x1c492d64c157aaa4,
    fromRaw pallasBase 0xa20c0b3da0da4ca3 0xd43487bc288df682 0xf4e6c5e7a573f592 0xc5b801579992718],
  ![fromRaw pallasBase 0x7ea33c93e40833cf 0x584e9e62a7f9554e 0x68695c0cd7cbf43d 0x1090b1b4d2bebe7a,
    fromRaw pallasBase 0xe383e1ec3baa8d69 0x1b218e35ecf2328e 0x68f5ce5cbed19cad 0x33e38018a801387a,
    fromRaw pallasBase 0xb76b0b3d787ee953 0x5f4a02d28729e3ae 0xeef8d83d0e876bac 0x1654af18772b2da5],
  ![fromRaw pallasBase 0xef7ce6a013265477 0xbb0893870367ec6c 0x44742de88c5ab0d5 0x1678be3cc9c67993,
    fromRaw pallasBase 0xaf5d47893348f766 0xdaf1818355b13b4f 0x7ff9c6be546e928a 0x3780bd1e01f34c22,
    fromRaw pallasBase 0xa12380320d7cc1de 0x5d11e69aa6c0b98c 0x786018e7cb77267 0x1e83d6315c9f125b],
  ![fromRaw pallasBase 0x1799603e855ce731 0xc486894d76e0c33b 0x160b41552f2931c8 0x354afd0a2f9d0b26,
    fromRaw pallasBase 0x8b997ee06be1bff3 0x60b00dbe1faced07 0x2d8affa62905c5a5 0xcd6d29f166eadc,
    fromRaw pallasBase 0x8d0641917082f2c 0xc60d01973f183057 0xdbe0e3d7cdbc66ef 0x1d6219352768e3ae],
  ![fromRaw pallasBase 0xfa08dd9806387577 0xafe3ca1db8d4f529 0xe48d2370d7d1a142 0x146336e25db5181d,
    fromRaw pallasBase 0xa901d3ce84de0ad4 0x22e54b49c13d907 0x997a21163e2e43df 0x5d8e085fd72ee,
    fromRaw pallasBase 0x1c36f31341964484 0x6f8ebc1d2296021a 0xdd5e61c8a4e8642 0x364e97c7a3893227],
  ![fromRaw pallasBase 0xd7a00c03d2e0baaa 0xfa97ec80ad307a52 0x561c6fff15346878 0x1189910671bc16b,
    fromRaw pallasBase 0x63fd8ac57a95ca8c 0x4c0f7e001df490aa 0x5229dfaa01231a45 0x162a7c80f4d2d12e,
    fromRaw pallasBase 0x32e69efb22f40b96 0xcaff31b4fda32124 0x2604e4afb09f8603 0x2a0d6c09576666bb],
  ![fromRaw pallasBase 0xc0a0180f8cbfc0d2 0xf444d10d63a74e2c 0xe16a4d603d5a808e 0x978e5c51e1e5649,
    fromRaw pallasBase 0x3f4460ebc351b6e 0x5087d903bdacfd1 0xebe19bbdce251011 0x1bdcee3aaca9cd25,
    fromRaw pallasBase 0xf61964bf3ade7670 0xc947321e0075e3f 0xe49479140b1944fd 0x1862cccb70b5b885],
  ![fromRaw pallasBase 0xc3267da6e94adc50 0x39ee99c1cc6e5dda 0xbc26cc883a1987e1 0x1f3e91d863c16922,
    fromRaw pallasBase 0xf85b4ac2c367406 0xfa661465c656ad99 0xef5c08f8478f663a 0x1af47a48a6016a49,
    fromRaw pallasBase 0xeabcd87e7d01b15 0x1c3698b0a2e3da10 0x9d57338c693505 0x3c8ee901956e3d3f],
  ![fromRaw pallasBase 0x8b94772189673476 0xe10ce2b7069f4dbd 0x68d0b024f591b520 0x1660a8cde7fec553,
    fromRaw pallasBase 0x9d8d0f67fdaa79d5 0x3963c2c1f5586e2f 0x1303936334dd1132 0xf6d991929d5e4e7,
    fromRaw pallasBase 0x7a433091e1ce2d3a 0x4e7fda770712f343 0xcc625eaaab52b4dc 0x2b9cea1921cd9f6],
  ![fromRaw pallasBase 0x3797b2d8376043b3 0xd8caf468976f0472 0x214f7c6784acb565 0x14a323b99b900331,
    fromRaw pallasBase 0x347fef2c00f0953a 0x718b7fbc7788af78 0xec01ea79642d5760 0x190476b580cb9277,
    fromRaw pallasBase 0xff4e7e6fb268dfd7 0x9660902b60087651 0xa42463d30b442b6f 0x90a3a9d869d2eef],
  ![fromRaw pallasBase 0xf983387ea0456203 0xe365001304f9a11e 0xdbe8fd2270a6795 0x3877a95586367567,
    fromRaw pallasBase 0x39c0af0fe01f4a06 0x60118c53a2181352 0x5df39a2cc63ddc0a 0x2d894691240fe953,
    fromRaw pallasBase 0x1aca9eaf9bba9850 0x5914e855eeb44aa1 0x7ef7178020166189 0x21b9c18292bdbc59],
  ![fromRaw pallasBase 0x33f509a74ad9d39b 0x272e1cc6c36a2968 0x505a05f2a6ae834c 0x2fe76be7cff723e2,
    fromRaw pallasBase 0xdf9fa97277fa8b4 0xd15bff840ddae8a5 0x929981d7cfce253b 0x187aa448f391e3ca,
    fromRaw pallasBase 0xf0c66af5ffc73736 0x663ccf7b2ffe4b5e 0x7ab3aa3617f422 0xb7083ad751707bf],
  ![fromRaw pallasBase 0x2f9b20f1fbd49791 0x1975b962f6cb8e0b 0x3bc4ca9902c52acb 0x30ddbb470493f16,
    fromRaw pallasBase 0x3a1c62ca8fbf2525 0x8fb8ab9d60ea17b2 0x950b0ab18d3546df 0x3130fbaffb5aa82a,
    fromRaw pallasBase 0x43a876180dc382e0 0x15ce2ead2fcd051e 0x4f74d74bac2ee457 0x337f544707c430f0],
  ![fromRaw pallasBase 0x26de98a8736d1d11 0x7d8e471a9fb95fef 0xac9d91b0930dac75 0x349979919015394f,
    fromRaw pallasBase 0xccfcb61831d5c775 0x3bf93da6fff31d95 0x2305cd7a921ec5f1 0x27cc4efe3fb35dd,
    fromRaw pallasBase 0xc3fa2629635d27de 0x67f1c6b7314764af 0x61b71a3698682ad2 0x37f9f2365954c5b],
  ![fromRaw pallasBase 0x77c5b024848371ae 0x60414abe362d01c9 0x10f1cc6df8b4bcd7 0x1f697cac4d07feb7,
    fromRaw pallasBase 0x786add244aa0ef29 0x3145c478063109d6 0x26e6c851fbd572a6 0x267a750fe5d7cfbc,
    fromRaw pallasBase 0x180e2b4d3e756f65 0xaf285fa82ce4fae5 0x678c9996d9a472c8 0xc91feab4a43193a],
  ![fromRaw pallasBase 0x79c47c573ac410f7 0x7e3b83af4a4ba3ba 0x2186c3038ea05e69 0x1745569a0a3e3014,
    fromRaw pallasBase 0x1e0388522696191f 0xfdff66c6f3b5ffe1 0xeca5120778a56711 0x29863d546e7e7c0d,
    fromRaw pallasBase 0x2f225e6366bfe390 0xa79a03df833994c6 0xbf06bae49ef853f6 0x1148d6ab2bd00192],
  ![fromRaw pallasBase 0xf4f6331a8b265d15 0xf745f45d350d41d4 0xe18b1499060da366 0x2e0e121b0f3dfef,
    fromRaw pallasBase 0x78ae6aa151054b7 0x690401736d44a653 0xb89ef73a40a2b274 0xd0aa46e76a6a278,
    fromRaw pallasBase 0x9a4d532c7b6e0958 0x392dde710f1f06db 0xeee545f3fa6d3d08 0x13943675b04aa986],
  ![fromRaw pallasBase 0x961fc818dcbb66b5 0xc9f2b3257530dafe 0xd97a11d63088f5d9 0x2901ec61942d34aa,
    fromRaw pallasBase 0xfdf544b963d1fdc7 0x22ffa2a2af9fa3e3 0xf431d54434a3e0cf 0x20204a2105d22e7e,
    fromRaw pallasBase 0x1211b9e2190d6852 0xa004abe8e01528c4 0x5c1e3e9e27a571c3 0x3a8a628295121d5c]]

/-- Models `MDS`, fp.rs lines 1307-1368. -/
def pallasMds : Fin 3 → Fin 3 → ZMod pallasBase := ![
  ![fromRaw pallasBase 0x323f2486d7e11b63 0x97d7a0ab23850b56 0xb3d59fbdc8c9ead4 0xab5e5b874a68de7,
    fromRaw pallasBase 0x8eca5596e996ab5e 0x240d4a7cbf735736 0x293f0f0d886c7954 0x31916628e58a5abb,
    fromRaw pallasBase 0x19d1cf25d8e8345d 0xa0a3b71a5fb15735 0xd803952bbb364fdf 0x7c045d5f5e9e5a6],
  ![fromRaw pallasBase 0xd049cdc8d085167c 0x3a0a464048bd770a 0xf8e24f66822c2d9f 0x233162630ebf9ed7,
    fromRaw pallasBase 0x402270113e047a2e 0x78f8365c85bbab07 0xb36664548d60957d 0x25cae2599892a8b0,
    fromRaw pallasBase 0xf84d806f685f747a 0x9aad3d8262efd83f 0x74938717989a1957 0x22f5b5e1e6081c97],
  ![fromRaw pallasBase 0xfee7a9944f84dbe4 0x21680eabc56bc15d 0xf333aa91c3833464 0x2e29dd59c64b1037,
    fromRaw pallasBase 0xc771effa43263664 0xcbeaf48b3a0624c3 0x92d15e7dceef1665 0x1d1aab4ec1cd6788,
    fromRaw pallasBase 0x15639415f6e85ef1 0x75872c39b59a31f6 0x51e0cbead65516b9 0x3bf763086a189364]]

/-- Models `MDS_INV`, fp.rs lines 1370-1431. -/
def pallasMdsInv : Fin 3 → Fin 3 → ZMod pallasBase := ![
  ![fromRaw pallasBase 0xc6de463cd1404e6b 0x4543705f35e98ab5 0xcc59ffd00de86443 0x2cc057f3fa14687a,
    fromRaw pallasBase 0x171840417cab7576 0xfadbf8ae7ae24796 0x5fd72b55df208385 0x32e7c439f2f967e5,
    fromRaw pallasBase 0x942645bd7d4464e0 0x1403db6f50302040 0xf461778abf6c91fa 0x2eae5df8c3115969],
  ![fromRaw pallasBase 0xa1ca1516a4a1a6a0 0x13f074fde9a18b29 0xdb18b4aefe68d26d 0x7bf368481067199,
    fromRaw pallasBase 0xe82425bc1b23a059 0xbb1d65040c85c1bf 0x18a918b9dac5dad 0x2aec6906c63f3cf1,
    fromRaw pallasBase 0xe0541adf238e0781 0x76b2a7139db71b36 0x1215944a64a246b2 0x952e0243aec2af0],
  ![fromRaw pallasBase 0x2a418d8d73a7c908 0xaef9112e952fdbb5 0x723a63a0c09dab26 0x2fcbba6f9159a219,
    fromRaw pallasBase 0x76efab42d4fba90b 0xc5e4960d7424cd37 0xb4ddd4b4d6452256 0x1ec7372574f3851b,
    fromRaw pallasBase 0xadc8933c6f3c72ee 0x87a7435d30f8be81 0x3c26fa4b7d25b1e4 0xd0c2efd6472f12a]]

/-- Models `P128Pow5T3` for this field, p128pow5t3.rs lines 16-40. -/
def pallasSpec : PoseidonSpec (ZMod pallasBase) 2 where
  fullRounds := 8
  partialRounds := 56
  sbox := (· ^ 5)
  constants := pallasConstants
  mds := pallasMds
  mdsInv := pallasMdsInv

/-- Models `ROUND_CONSTANTS`, fq.rs lines 13-1294. -/
def vestaConstants : List (Fin 3 → ZMod vestaBase) := [
  ![fromRaw vestaBase 0x57538c2596426303 0x4e71162f31003b70 0x353f628f76d110f3 0x360d7470611e473d,
    fromRaw vestaBase 0xbdb74213bf63188b 0x4908ac2f12ebe06f 0x5dc3c6c5febfaa31 0x2bab94d7ae222d13,
    fromRaw vestaBase 0x939d92753cc5dc8 0xef77e7d736766c5d 0x2bf03e1a29aa871f 0x150c93fef652fb1c],
  ![fromRaw vestaBase 0x14259dce537782b2 0x3cc0a60141e894e 0x955d55db56dc57c1 0x3270661e68928b3a,
    fromRaw vestaBase 0xce9fb9ffc345afb3 0xb407c370f2b5a1cc 0xa0b7afe4e2057299 0x73f116f04122e25,
    fromRaw vestaBase 0x8ebad76fc71554d8 0x55c9cd2061ae93ca 0x7affd09c1f53f5fd 0x2a32ec5c4ee5b183],
  ![fromRaw vestaBase 0x2d8ccbe292efeead 0x634d24fc6e2559f2 0x651e2cfc740628ca 0x270326ee039df19e,
    fromRaw vestaBase 0xa068fc37c182e274 0x8af895bce012f182 0xdc100fe7fcfa5491 0x27c6642ac633bc66,
    fromRaw vestaBase 0x9ca18682e26d7ff9 0x710e1fb6ab976a45 0xd27f57396989129d 0x1bdfd8b01401c70a],
  ![fromRaw vestaBase 0xc832d824261a35ea 0xf4f6fb3f9054d373 0x14b9d6a9c84dd678 0x162a14c62f9a89b8,
    fromRaw vestaBase 0xf79824667b5b6bec 0xac0a1fc71e2cf0c0 0x2af6f79e3127feea 0x2d193e0f76de586b,
    fromRaw vestaBase 0x5d0bf58dc8a4aa94 0x4feff82984990ff8 0x81696ef1104e674f 0x44ca3cc4a85d73b],
  ![fromRaw vestaBase 0x6198785f0cd6b9af 0xb8d9e2d4f314f46f 0x1d0453416d3e235c 0x1cbaf2b371dac6a8,
    fromRaw vestaBase 0x343e07610f3fede5 0x293c4ab038fdbbdc 0xe6c49d061b6b5f4 0x1d5b2777692c205b,
    fromRaw vestaBase 0xf60e971b8d73b04f 0x6a9adb0c1e6f962 0xaa30535bdd749a7e 0x2e9bdbba3dd34bff],
  ![fromRaw vestaBase 0x35a13661f22418b 0xde40fbe26d047b05 0x8bd5bae36969299f 0x2de11886b18011ca,
    fromRaw vestaBase 0xbc998884ba96a721 0x2ab9395c449be947 0xd5b4a3f1841dcd8 0x2e07de1780b8a70d,
    fromRaw vestaBase 0x825e4c2bb74925ca 0x250440a99d6b8af3 0xbbdb63dbd52dad16 0xf69f1854d20ca0c],
  ![fromRaw vestaBase 0x816c059422dc705e 0x6ce5113507f96de9 0xd135dc639fb09a4 0x2eb1b25417fe1767,
    fromRaw vestaBase 0xb8b1bdf4953bd82c 0xff36c661d26cc42d 0x8c24cb44c3fab48a 0x115cd0a0643cfb98,
    fromRaw vestaBase 0xde801612311d04cd 0xbb57ddf14e0f958a 0x66d7378b999868b 0x26ca293f7b2c462d],
  ![fromRaw vestaBase 0xf5209d14b24820ca 0xf160bf9f71e967f 0x2a830aa162412cd9 0x17bf1b93c4c7e01a,
    fromRaw vestaBase 0x5c86f2e7dc293c5 0xe03c0354bd8cfd38 0xa24f8456369c85df 0x35b41a7ac4f3c571,
    fromRaw vestaBase 0x72ac156af435d09e 0x64e14d3beb2dddde 0x435927994849bea9 0x3b1480080523c439],
  ![fromRaw vestaBase 0x271618d874b14c6d 0x8e286442a2d3eb2 0x4950856dc907d575 0x2cc6810031dc1b0d,
    fromRaw vestaBase 0x91f318c09f0cb566 0x9e517aa93b78341d 0x59618e2afd2ef99 0x25bdbbeda1bde8c1,
    fromRaw vestaBase 0xc6313487073f7f7b 0x2a5ed0a27b61926c 0xb95f33c25dde8ac0 0x392a4a8758e06ee8],
  ![fromRaw vestaBase 0xe7bbcef02eb5866c 0x5e6a6fd15db89365 0x9aa6111f4de00948 0x272a55878a08442b,
    fromRaw vestaBase 0x9b925b3c5b21e0e2 0xa6ebba011694dd12 0xefa13c4e60e26239 0x2d5b308b0cf02cdf,
    fromRaw vestaBase 0xef38c57c311673ac 0x44dff42f18b46c56 0xdd5d293d72e2e5f2 0x16549fc6af2f3b72],
  ![fromRaw vestaBase 0x9b7126d9b46860df 0x7639826534420311 0xfa69c3a2ad52f76d 0x1b10bb7a82afce39,
    fromRaw vestaBase 0x90d27f6a00b7dfc8 0xd1b36968ba0405c0 0xc79c2df7dc98a3be 0xf1e7505ebd91d2f,
    fromRaw vestaBase 0xff457756b819bb20 0x797fd6e3f18eb1ca 0x537a7497a3b43f46 0x2f313faf0d3f6187],
  ![fromRaw vestaBase 0xf0bc3e732ecb26f6 0x5cad11ebf0f7ceb8 0xfa3ca61c0ed15bc5 0x3a5cbb6de450b481,
    fromRaw vestaBase 0x865527cbca915982 0x51baa6e20f892b62 0xd92086e253b439d6 0x3dab54bc9bef688d,
    fromRaw vestaBase 0x368045acf2b71ae3 0x4c24b33b410fefd4 0xe280d31670123f74 0x6dbfb42b979884d],
  ![fromRaw vestaBase 0xa7fc32d22f18b9d3 0xb8d2de72e3d2c9ec 0xc6f039ea1973a63e 0x68d6b4608aae810,
    fromRaw vestaBase 0x2b5dfcc5572555df 0xb868a7d7e1f1f69a 0xee258c9b8fdfccd 0x366ebfafa3ad381c,
    fromRaw vestaBase 0xe6bc229e95bc76b1 0x7ef66d89d044d022 0x4db3024f41d3f56 0x39678f65512f1ee4],
  ![fromRaw vestaBase 0xe534c88fe53d85fe 0xcf82c25f99dc01a4 0xd58b7750a3bc2fe1 0x21668f016a8063c0,
    fromRaw vestaBase 0x4bef429bc5331608 0xe34dea56439fe195 0x1bc749363e98a768 0x39d00994a8a5046a,
    fromRaw vestaBase 0x770c956f60d881b3 0xb163d41605d39f99 0x6b203bbe12fb3425 0x1f9dbdc3f8431263],
  ![fromRaw vestaBase 0x9794a9f7c336eab2 0xbe0bc829fe5e66c6 0xe5f17b9e0ee0cab6 0x27745a9cddfad95,
    fromRaw vestaBase 0x52025657abd8aee0 0x2fa43fe20a45c78d 0x788d695c61e93212 0x1cec0803c504b635,
    fromRaw vestaBase 0xd3872a9559a03a73 0xed5082c8dbf31365 0x72077448ef87cc6e 0x123523d75e9fabc1],
  ![fromRaw vestaBase 0x1779e3a1d357f4 0x27feba35975ee7e5 0xf419b848e5d694bf 0x1723d1452c9cf02d,
    fromRaw vestaBase 0x9dab1ee4dcf96622 0x21c3f776f572836d 0xfcc0573d7e613694 0x1739d180a16010bd,
    fromRaw vestaBase 0x70290452042d048d 0xfafa96fbeb0ab893 0xacce32391794b627 0x2d4e6354da9cc554],
  ![fromRaw vestaBase 0x670bcf6f8b485dcd 0x8f3bd43f99260621 0x4a869553c9d007f8 0x153ee6142e535e33,
    fromRaw vestaBase 0xd258d2e2b7782172 0x968ad4424af83700 0x635ef7e7a430b486 0xc45bfd3a69aaa65,
    fromRaw vestaBase 0xe5633d251f73307 0x6897ac0a8ffa5ff1 0xf2d56aec83144600 0xadfd53b256a6957],
  ![fromRaw vestaBase 0xac9d36a8b7516d63 0x3f87b28f1c1be4bd 0x8cd1726b7cbab8ee 0x315d2ac8ebdbac3c,
    fromRaw vestaBase 0x299ce44ea423d8e1 0xc9bb60d1f6959879 0xcfaec23d2b16883f 0x1b8472712d02eef4,
    fromRaw vestaBase 0xc4a5404198adf70c 0x367d2c54e36928c9 0xbd0b70fa2255eb6f 0x3c1cd07efda6ff24],
  ![fromRaw vestaBase 0xbbe523aef9ab107a 0x4a16073f738f7e0c 0x687f4e51b2e1dcd3 0x136052d26bb3d373,
    fromRaw vestaBase 0x676c36c24ef967dd 0x7b3cfbb873032681 0xc1bdd859a1232a1d 0x16c96beef6a0a848,
    fromRaw vestaBase 0x67eec7f2d6340c4 0x12387bab4f1662d 0x2ab7fed8f499a9fb 0x284b38c57ff65c26],
  ![fromRaw vestaBase 0xaf1dff204c922f86 0xfc06772c1c0411a6 0x39e242198897d17c 0xc5993d175e81f66,
    fromRaw vestaBase 0xbbf53f67b1f87b15 0xf24887ad48e17759 0xfcda655d1ba9c8f9 0x3bf7a3f7bd043da,
    fromRaw vestaBase 0x9b5cd09e36d8be62 0x4c8f9cbe69f0e827 0xb0cf999567f00e73 0x3188fe4ee9f9fafb],
  ![fromRaw vestaBase 0xafea99a2ec6c595a 0x3af5bf77c1c42652 0x5a39768c480d61e1 0x171f528ccf658437,
    fromRaw vestaBase 0x5a0563b9b8e9f1d5 0x812c3286ee700067 0x196e41859b35ef88 0x12f4175c4ab45afc,
    fromRaw vestaBase 0xe74d4d369118b79 0x7e23e1aabe96cfab 0x8f8fdcf800a9ac69 0x3a509e155cb7ebfd],
  ![fromRaw vestaBase 0x98712c65678cfd30 0x984bc8f2e4c1b69e 0x1a89920e2504c3b3 0x10f2a685df4a27c8,
    fromRaw vestaBase 0xe8a16728cc9d4918 0x54573c9333c56321 0x1d8d93d54ab91a0e 0x9e5f49790c8a0e2,
    fromRaw vestaBase 0x609a740347cf5fea 0x42d17ed6ee0fab7e 0x2bf35705d9f84a34 0x352d69bed80ee3e5],
  ![fromRaw vestaBase 0x3a758af6fa84e0e8 0xc634debd281b76a6 0x491562faf2b190d3 0x58ee73ba9f3f293,
    fromRaw vestaBase 0x621a132510a43904 0x92cb92119bc76be 0xcd0f1fc55b1a3250 0x232f99cc911eddd9,
    fromRaw vestaBase 0xc3b97c1e301bc213 0xf9efd52ca6bc2961 0x86c22c6c5d4869f0 0x201beed7b8f3ab81],
  ![fromRaw vestaBase 0xbf6b3431ba94e9bc 0x29388842744a1210 0xa1c9291d58602f51 0x1376dce6580030c6,
    fromRaw vestaBase 0x6454843c5486d7b3 0x72ba8b02d92e722 0x2b3356c38238f761 0x1793199e6fd6ba34,
    fromRaw vestaBase 0x6a3f1d3b433311b 0x3c66160dc62aacac 0x9fee9c20c87a67df 0x22de7a7488dcc735],
  ![fromRaw vestaBase 0x30d6e3fd516b47a8 0xdbe0b77fae77e1d0 0xdf8ff37fe2d8edf8 0x3514d5e9066bb160,
    fromRaw vestaBase 0x19377427137a81c7 0xff453d6f900f144a 0xf919a00dabbf5fa5 0x30cd3006931ad636,
    fromRaw vestaBase 0x5b6a74220692b506 0x8f9e4b2cae2ebb51 0x41f81a5cf613c8df 0x253d1a5c52934127],
  ![fromRaw vestaBase 0x73f666cb86a48e8e 0x851b3a59c990fafc 0xa35e9613e7f5fe92 0x35b461c02d79d19,
    fromRaw vestaBase 0x7cfbf86a3aa04780 0x92b1283c2d5fccde 0x5bc00eedd56b93e0 0x23a9928079d175bd,
    fromRaw vestaBase 0xf1e4ccd73fa00a82 0xb5e2ea3436eef957 0xf1594a0763c611ab 0x13a7785ae134ea92],
  ![fromRaw vestaBase 0xbbf04f5252de4279 0x3889c57863446d88 0x4962ae3c0da17e31 0x39fce308b7d43c57,
    fromRaw vestaBase 0x3b57e34489b53fad 0xbef00a08c6ed38d2 0xc0fdf01662f60d22 0x1aae18833f8e1d3a,
    fromRaw vestaBase 0x55513e033398513f 0x27c1b3fd8f85d8a8 0x8b2e80c064fd83ed 0x1a761ce82400af01],
  ![fromRaw vestaBase 0x5244ca749b73e481 0xdcf6af2830a50287 0x16dd1a87ca22e1cc 0x275a03e45adda7c3,
    fromRaw vestaBase 0x58a253cfb6a95786 0x7e561453fc5648b 0xeb08e47e5feabcf8 0x2e5a10f08b5ab8bb,
    fromRaw vestaBase 0xe033d82cefe78ce3 0xc141a5b6d594bec4 0xb84e9c333b2932f1 0x1459cb8587208473],
  ![fromRaw vestaBase 0x5cec7e7b338fbe1b 0x52f9332fbffcfbbd 0x7b92ce810e14a400 0x193ae5921d78b5de,
    fromRaw vestaBase 0x60224be67248e82c 0x374384f4a0728205 0x89111fb2c4660281 0x3097898a5d0011a4,
    fromRaw vestaBase 0x549980de862930f5 0x1979b2d1c465b4d9 0x571782fd96ce54b4 0x378d97bf8c864ae7],
  ![fromRaw vestaBase 0x37ea32a971d17884 0xdbc7f5cb46093421 0x88136287ce376b08 0x2eb04ea7c01d97ec,
    fromRaw vestaBase 0xead3726f1af2e7b0 0x861cbda476804e6c 0x2302a1c22e49baec 0x36425347ea03f641,
    fromRaw vestaBase 0xecd627e59590d09e 0x3f5b5ca5a19a9701 0xcc996cd85c98a1d8 0x26b72df47408ad42],
  ![fromRaw vestaBase 0x59bece31f0a31e95 0xde01212ee4588f89 0x1f05636c610b89aa 0x130180e44e2924db,
    fromRaw vestaBase 0x9ea8e7bc79263550 0xdf7793cc89e5b52f 0x73275acaed5f579c 0x219e97737d3979ba,
    fromRaw vestaBase 0x9c12635df251d153 0x3b0672dd7d42cbb4 0x3461363f81c489a2 0x3cdb93598a5ca528],
  ![fromRaw vestaBase 0x2861ce16f219d5a9 0x4ad0447045a7c5aa 0x20724b927a0ca81c 0xe59e6f332d7ed37,
    fromRaw vestaBase 0x43b0a3fcff2036bd 0x172cc07b9d33fbf9 0x3d7369467222697a 0x1b064342d51a4275,
    fromRaw vestaBase 0x3eb310228a0e5f6c 0x78fa9fb9171221b7 0x2f363c55b2882e0b 0x30b82a998cbd8e8a],
  ![fromRaw vestaBase 0xe46f6d4298740107 0x8ad71ea715be0573 0x63df7a76e858a4aa 0x23e4ab37183acba4,
    fromRaw vestaBase 0xfca995e2b59914a1 0xacfe14640de044f2 0x5d33094e0beda75b 0x2795d5c5fa428022,
    fromRaw vestaBase 0xc26d909dee8b53c0 0xa6687c3df16c8fe4 0xd765f26dd03f4c45 0x3001ca401e89601c],
  ![fromRaw vestaBase 0xe7fea6bdf3471380 0xe84b5bebae4e501d 0xf7bf86e89280827f 0x72e45cc676b08e,
    fromRaw vestaBase 0xd0c54ddeb26b86c0 0xb64829e2d40e41bd 0xe2abe4c518ce599e 0x13de705484874bb5,
    fromRaw vestaBase 0x38915b432a9959a5 0x82bb18e5af1b05bb 0x315950f1211defe8 0x408a9fcf9d61abf],
  ![fromRaw vestaBase 0x34070cbee26886a0 0xae4d23b0b41be9a8 0xbb4e4a1400ccd2c4 0x2780b9e75b55676e,
    fromRaw vestaBase 0x9405592098b4056f 0xdc4d8fbefe24405a 0xf80333ec85634ac9 0x3a570d4d7c4e7ac3,
    fromRaw vestaBase 0x78d2b247899520b4 0xe2cc1507bebdcc62 0xf347c247fcf09294 0xc13cca7cb1f9d2c],
  ![fromRaw vestaBase 0x2e8c88f7707470e0 0xb50bb2eb82df74d 0xd2614a197c6b794b 0x14f59baa03cd0ca4,
    fromRaw vestaBase 0xbe52476e0a16f3be 0xa51d54ede66167f5 0x6f546e1704c39c60 0x307defee925dfb43,
    fromRaw vestaBase 0x380b67d80473dce3 0x661106836adfe5e7 0x7a07e7674b5a2621 0x1960cd511a91e060],
  ![fromRaw vestaBase 0x15aaf1f7712589dd 0xb8ee335d88284cbe 0xca2ad0fb56672500 0x2301ef9c63ea84c5,
    fromRaw vestaBase 0x5e68478c4d6027a9 0xc86182d1b4246b58 0xd10f4cd52be97f6b 0x29a5a47da79a488,
    fromRaw vestaBase 0x2cc4f962eaae2260 0xf97fe46b6a925428 0x2360d17d890e55cb 0x32d7b16a7f11cc96],
  ![fromRaw vestaBase 0xc0cab915d5363d9f 0xa5f2404cd7b35eb0 0x18e857a98d498cf7 0x26703e48c03b81ca,
    fromRaw vestaBase 0xf691123ae112b928 0xf44388bd6b89221e 0x88ac8d25a24603f1 0x48682a35b3265bc,
    fromRaw vestaBase 0x3ab7defcb8d803e2 0x91d6e1715164775e 0xd72cddc6cf06b507 0x6b1390441fa7030],
  ![fromRaw vestaBase 0xbcd795414a6e2e86 0x43b360f6386a86d7 0x1689426dce05fcd8 0x31aa0eeb868c626d,
    fromRaw vestaBase 0xed77f5d576b99cc3 0x90efd8f41b2078b2 0x57abad3764c104b 0x239464f75bf7b6af,
    fromRaw vestaBase 0xb2cb487307c1cecf 0xa5cc47c59654b2a7 0xa45e19ed813a54ab 0xa64d4c04fd426bd],
  ![fromRaw vestaBase 0x1f7315322f658735 0x777c7a921a062e9d 0x576a4ad259860fb1 0x21fbbdbb73670734,
    fromRaw vestaBase 0x674324003fc52146 0x5b86d29463d31564 0xd9371ca2eb95acf3 0x31b86f3cf01705d4,
    fromRaw vestaBase 0x7045f48aa4eb4f6f 0x13541d65157ee1ce 0x5ef1736d09056f6 0x2bfde53354377c91],
  ![fromRaw vestaBase 0x5a13a58d20011e2f 0xf4d5239c11d0eafa 0xd558f36e65f8eca7 0x1233ca936ec24671,
    fromRaw vestaBase 0x6e70af0a7a924b3a 0x878058d0234a576f 0xc437846d8e0b2b30 0x27d452a43ac7dea2,
    fromRaw vestaBase 0xa02576b94392f980 0x6a30641a1c3d87b2 0xe816ea8da493e0fa 0x2699dba82184e413],
  ![fromRaw vestaBase 0x608c6f7a61b56e55 0xf18584664f8cab49 0xc3988baee42e4b10 0x36c722f0efcc8803,
    fromRaw vestaBase 0x6e49ac170dbb7fcd 0x85c38899a7b5a833 0x8b0f2ec89ccaa37 0x2b3ff48861e339b,
    fromRaw vestaBase 0xa8c5ae03ad98e405 0x6fc3ff4c49eb59ad 0x60162f4427bc657b 0xb70d061d58d8a7f],
  ![fromRaw vestaBase 0x2e06cc4af33b0a06 0xad3de8be46ed9693 0xf8753adeb9d7cee2 0x3fc2a13f127f96a4,
    fromRaw vestaBase 0xc12080ac117ee15f 0xcb3d621e171d80 0x1bd63434ac8c419f 0xc41a6e48dd23a51,
    fromRaw vestaBase 0x9685213e9692f5e1 0x72aaad7e4e75339d 0xed4476537169084e 0x2de8072a6bd86884],
  ![fromRaw vestaBase 0xad01184567b027c 0xb81cf735cc9c39c0 0x9d3496a3d9fe05ec 0x3557a8f7b38a17f,
    fromRaw vestaBase 0x45bcb5ac00826abc 0x60f43363d818e54 0xee976d34282f1a37 0xb5f59552f498735,
    fromRaw vestaBase 0x2f2909e17e22b0df 0xf5d646e57507e548 0xfedbb18570dc7300 0xe2923a5fee7b878],
  ![fromRaw vestaBase 0xf71eed73f15b3326 0xcf1cb37c3b032af6 0xc787be97020a7fdd 0x1d785005a7a00592,
    fromRaw vestaBase 0xacfbfb223f8f00d 0xa590b88a3b060294 0xba5fedcb8f25bd2 0x1ad772c273d9c6df,
    fromRaw vestaBase 0xc1ce13d60f2f5031 0x810510eb61f0672d 0xa78f3275c278234b 0x27bd64785fcbd2a],
  ![fromRaw vestaBase 0x8337f5e07923a853 0xe224313469457b8e 0xce6f8ffea1031b6d 0x20800f441b4a0526,
    fromRaw vestaBase 0xa33d7bed89a4408a 0x36cdc8eed662ad37 0x6eea2cd49f4312b4 0x3d5ad61d7b65f938,
    fromRaw vestaBase 0x3bbbae94cc195284 0x1df96cc03ea4b26d 0x2c5f91be4dd8e3d 0x13338bc351fc46dd],
  ![fromRaw vestaBase 0xc5271c297852819e 0x646c49f9b46cbf19 0xb87db1e2af3ea923 0x25e52be507c92760,
    fromRaw vestaBase 0x5c380ab701b52ea9 0xa34c83a3485c6b2d 0x71096d8b1b983c98 0x1c492d64c157aaa4,
    fromRaw vestaBase 0xa20c0b3da0da4ca3 0xd43487bc288df682 0xf4e6c5e7a573f592 0xc5b801579992718],
  ![fromRaw vestaBase 0x7ea33c93e40833cf 0x584e9e62a7f9554e 0x68695c0cd7cbf43d 0x1090b1b4d2bebe7a,
    fromRaw vestaBase 0xe383e1ec3baa8d69 0x1b218e35ecf2328e 0x68f5ce5cbed19cad 0x33e38018a801387a,
    fromRaw vestaBase 0xb76b0b3d787ee953 0x5f4a02d28729e3ae 0xeef8d83d0e876bac 0x1654af18772b2da5],
  ![fromRaw vestaBase 0xef7ce6a013265477 0xbb0893870367ec6c 0x44742de88c5ab0d5 0x1678be3cc9c67993,
    fromRaw vestaBase 0xaf5d47893348f766 0xdaf1818355b13b4f 0x7ff9c6be546e928a 0x3780bd1e01f34c22,
    fromRaw vestaBase 0xa12380320d7cc1de 0x5d11e69aa6c0b98c 0x786018e7cb77267 0x1e83d6315c9f125b],
  ![fromRaw vestaBase 0x1799603e855ce731 0xc486894d76e0c33b 0x160b41552f2931c8 0x354afd0a2f9d0b26,
    fromRaw vestaBase 0x8b997ee06be1bff3 0x60b00dbe1faced07 0x2d8affa62905c5a5 0xcd6d29f166eadc,
    fromRaw vestaBase 0x8d0641917082f2c 0xc60d01973f183057 0xdbe0e3d7cdbc66ef 0x1d6219352768e3ae],
  ![fromRaw vestaBase 0xfa08dd9806387577 0xafe3ca1db8d4f529 0xe48d2370d7d1a142 0x146336e25db5181d,
    fromRaw vestaBase 0xa901d3ce84de0ad4 0x22e54b49c13d907 0x997a21163e2e43df 0x5d8e085fd72ee,
    fromRaw vestaBase 0x1c36f31341964484 0x6f8ebc1d2296021a 0xdd5e61c8a4e8642 0x364e97c7a3893227],
  ![fromRaw vestaBase 0xd7a00c03d2e0baaa 0xfa97ec80ad307a52 0x561c6fff15346878 0x1189910671bc16b,
    fromRaw vestaBase 0x63fd8ac57a95ca8c 0x4c0f7e001df490aa 0x5229dfaa01231a45 0x162a7c80f4d2d12e,
    fromRaw vestaBase 0x32e69efb22f40b96 0xcaff31b4fda32124 0x2604e4afb09f8603 0x2a0d6c09576666bb],
  ![fromRaw vestaBase 0xc0a0180f8cbfc0d2 0xf444d10d63a74e2c 0xe16a4d603d5a808e 0x978e5c51e1e5649,
    fromRaw vestaBase 0x3f4460ebc351b6e 0x5087d903bdacfd1 0xebe19bbdce251011 0x1bdcee3aaca9cd25,
    fromRaw vestaBase 0xf61964bf3ade7670 0xc947321e0075e3f 0xe49479140b1944fd 0x1862cccb70b5b885],
  ![fromRaw vestaBase 0xc3267da6e94adc50 0x39ee99c1cc6e5dda 0xbc26cc883a1987e1 0x1f3e91d863c16922,
    fromRaw vestaBase 0xf85b4ac2c367406 0xfa661465c656ad99 0xef5c08f8478f663a 0x1af47a48a6016a49,
    fromRaw vestaBase 0xeabcd87e7d01b15 0x1c3698b0a2e3da10 0x9d57338c693505 0x3c8ee901956e3d3f],
  ![fromRaw vestaBase 0x8b94772189673476 0xe10ce2b7069f4dbd 0x68d0b024f591b520 0x1660a8cde7fec553,
    fromRaw vestaBase 0x9d8d0f67fdaa79d5 0x3963c2c1f5586e2f 0x1303936334dd1132 0xf6d991929d5e4e7,
    fromRaw vestaBase 0x7a433091e1ce2d3a 0x4e7fda770712f343 0xcc625eaaab52b4dc 0x2b9cea1921cd9f6],
  ![fromRaw vestaBase 0x3797b2d8376043b3 0xd8caf468976f0472 0x214f7c6784acb565 0x14a323b99b900331,
    fromRaw vestaBase 0x347fef2c00f0953a 0x718b7fbc7788af78 0xec01ea79642d5760 0x190476b580cb9277,
    fromRaw vestaBase 0xff4e7e6fb268dfd7 0x9660902b60087651 0xa42463d30b442b6f 0x90a3a9d869d2eef],
  ![fromRaw vestaBase 0xf983387ea0456203 0xe365001304f9a11e 0xdbe8fd2270a6795 0x3877a95586367567,
    fromRaw vestaBase 0x39c0af0fe01f4a06 0x60118c53a2181352 0x5df39a2cc63ddc0a 0x2d894691240fe953,
    fromRaw vestaBase 0x1aca9eaf9bba9850 0x5914e855eeb44aa1 0x7ef7178020166189 0x21b9c18292bdbc59],
  ![fromRaw vestaBase 0x33f509a74ad9d39b 0x272e1cc6c36a2968 0x505a05f2a6ae834c 0x2fe76be7cff723e2,
    fromRaw vestaBase 0xdf9fa97277fa8b4 0xd15bff840ddae8a5 0x929981d7cfce253b 0x187aa448f391e3ca,
    fromRaw vestaBase 0xf0c66af5ffc73736 0x663ccf7b2ffe4b5e 0x7ab3aa3617f422 0xb7083ad751707bf],
  ![fromRaw vestaBase 0x2f9b20f1fbd49791 0x1975b962f6cb8e0b 0x3bc4ca9902c52acb 0x30ddbb470493f16,
    fromRaw vestaBase 0x3a1c62ca8fbf2525 0x8fb8ab9d60ea17b2 0x950b0ab18d3546df 0x3130fbaffb5aa82a,
    fromRaw vestaBase 0x43a876180dc382e0 0x15ce2ead2fcd051e 0x4f74d74bac2ee457 0x337f544707c430f0],
  ![fromRaw vestaBase 0x26de98a8736d1d11 0x7d8e471a9fb95fef 0xac9d91b0930dac75 0x349979919015394f,
    fromRaw vestaBase 0xccfcb61831d5c775 0x3bf93da6fff31d95 0x2305cd7a921ec5f1 0x27cc4efe3fb35dd,
    fromRaw vestaBase 0xc3fa2629635d27de 0x67f1c6b7314764af 0x61b71a3698682ad2 0x37f9f2365954c5b],
  ![fromRaw vestaBase 0x77c5b024848371ae 0x60414abe362d01c9 0x10f1cc6df8b4bcd7 0x1f697cac4d07feb7,
    fromRaw vestaBase 0x786add244aa0ef29 0x3145c478063109d6 0x26e6c851fbd572a6 0x267a750fe5d7cfbc,
    fromRaw vestaBase 0x180e2b4d3e756f65 0xaf285fa82ce4fae5 0x678c9996d9a472c8 0xc91feab4a43193a],
  ![fromRaw vestaBase 0x79c47c573ac410f7 0x7e3b83af4a4ba3ba 0x2186c3038ea05e69 0x1745569a0a3e3014,
    fromRaw vestaBase 0x1e0388522696191f 0xfdff66c6f3b5ffe1 0xeca5120778a56711 0x29863d546e7e7c0d,
    fromRaw vestaBase 0x2f225e6366bfe390 0xa79a03df833994c6 0xbf06bae49ef853f6 0x1148d6ab2bd00192],
  ![fromRaw vestaBase 0xf4f6331a8b265d15 0xf745f45d350d41d4 0xe18b1499060da366 0x2e0e121b0f3dfef,
    fromRaw vestaBase 0x78ae6aa151054b7 0x690401736d44a653 0xb89ef73a40a2b274 0xd0aa46e76a6a278,
    fromRaw vestaBase 0x9a4d532c7b6e0958 0x392dde710f1f06db 0xeee545f3fa6d3d08 0x13943675b04aa986],
  ![fromRaw vestaBase 0x961fc818dcbb66b5 0xc9f2b3257530dafe 0xd97a11d63088f5d9 0x2901ec61942d34aa,
    fromRaw vestaBase 0xfdf544b963d1fdc7 0x22ffa2a2af9fa3e3 0xf431d54434a3e0cf 0x20204a2105d22e7e,
    fromRaw vestaBase 0x1211b9e2190d6852 0xa004abe8e01528c4 0x5c1e3e9e27a571c3 0x3a8a628295121d5c]]

/-- Models `MDS`, fq.rs lines 1307-1368. -/
def vestaMds : Fin 3 → Fin 3 → ZMod vestaBase := ![
  ![fromRaw vestaBase 0xeb4f1f742963421f 0x5f710afc43ddc5f6 0x91913f56cf21af2b 0x1853b4977c6fa227,
    fromRaw vestaBase 0x45e51db6ac6fe4a7 0x5a0fa4dfa500bcad 0x63f484c10fcf0586 0x3d831189cfbbc452,
    fromRaw vestaBase 0xd18837f98347f137 0x3f8965c780838a94 0x4ba88b9e401719c0 0x3a0e3f84d3c177d8],
  ![fromRaw vestaBase 0x84fd7923337cf77e 0x2896f8d0fd5c9a75 0x8e9dc529f4718f83 0x35e26e3984506279,
    fromRaw vestaBase 0x3eb924f56fff7908 0x3641cecf3a2a5a8a 0xcd7dbea79970ab 0x10a8166302cb753c,
    fromRaw vestaBase 0xb67227c1a141ae94 0x198e1aee777e2521 0xf43492ce51214b00 0x314f762a506d321b],
  ![fromRaw vestaBase 0xabcbd614eaf5eba1 0xa90f28b0cb3176fb 0xcb2eab86ef31d915 0x7b85627c832782a,
    fromRaw vestaBase 0xc255efd006b5db1c 0xb5d985dc1630a4b2 0x97564e1b5d1ac72f 0x2a2de13e70f27e16,
    fromRaw vestaBase 0xcffdf529333429fc 0x21e3af7ef12332cd 0xfff540a87327c7ce 0x2c6094d1c6e1caba]]

/-- Models `MDS_INV`, fq.rs lines 1370-1431. -/
def vestaMdsInv : Fin 3 → Fin 3 → ZMod vestaBase := ![
  ![fromRaw vestaBase 0xb204ddc65e582044 0x47a60484b0a99c91 0xcaf54d7824c1200e 0x36df495021cf7828,
    fromRaw vestaBase 0x6a6b94adaa0d9c9e 0xe2cd38b959d461ff 0xe43ec4bf3e0df00c 0x34fbeae4650c2c7,
    fromRaw vestaBase 0xa8627a028c1af7d6 0x841bebf1a15b746e 0x1fd56832d0ab5570 0x20a864d6790f7c1c],
  ![fromRaw vestaBase 0x3470d5c553bc9d20 0x1f95660feb5db121 0xdd3197acc8949076 0x2d08703d48ecd7dc,
    fromRaw vestaBase 0x6b5b42b067d830f3 0x6169b6fa721a470e 0xeff318a28983158a 0x2db10ecd507a2f27,
    fromRaw vestaBase 0xfbaeb537d2784760 0x68e70907e7089d 0x926a5fc0cc1ef726 0xc8a58c06473cdfa],
  ![fromRaw vestaBase 0x3a5aca1071296e61 0x4ad4442e96c9d5e8 0x5432f0c0b908a411 0x2a642dca695d744d,
    fromRaw vestaBase 0x1bd9bfcbbe025ff1 0x24f6ad43b703ad90 0xebb7238df00d17e7 0x114ec796fb403f5f,
    fromRaw vestaBase 0x67f0642e14a9c3bf 0xf6a6917670697a97 0x408110dc66eb147 0x2825e0675968dbeb]]

/-- Models `P128Pow5T3` for this field, p128pow5t3.rs lines 42-66. -/
def vestaSpec : PoseidonSpec (ZMod vestaBase) 2 where
  fullRounds := 8
  partialRounds := 56
  sbox := (· ^ 5)
  constants := vestaConstants
  mds := vestaMds
  mdsInv := vestaMdsInv

end Verif.Gadget
