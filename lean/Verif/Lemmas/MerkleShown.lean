import Verif.Lemmas.Merkle
import Verif.Lemmas.SinsemillaShown
import Verif.Lemmas.EccFixedCheck

/-! The hash of a layer of a Merkle tree, cell by cell, and with another encoding of the left child. -/

namespace Verif.Lemmas.Merkle

open Verif.Gadget Verif.Spec.Gadget Verif.Spec Verif.Spec.Ecc Verif.Spec.Pow5 Verif.Spec.Sinsemilla Verif.Spec.Merkle
open Verif.Lemmas.Gadget Verif.Lemmas.Ecc Verif.Lemmas.Sinsemilla Verif.Props
open Verif.FloorPlanner (Call)

/-- The calls of a range check of an unknown value, with the inverse given. -/
def shortCalls (c : RangeCheck) (inv : Fp) : Calls Fp :=
  [.advice c.runningSum 0 none, .enable c.qLookup 0, .enable c.qLookup 1, .enable c.qBitshift 1, .advice c.runningSum 1 none,
    .constant c.runningSum 2 (some inv)]

/-- An unknown piece. -/
def unknownPiece (c : Merkle) (region n : Nat) : Piece pallasBase := ⟨⟨⟨region, 0, .advice c.witness⟩, none⟩, n⟩

/-- An unknown cell of the range check. -/
def unknownBits (c : Merkle) (region : Nat) : Assigned Fp := ⟨⟨region, 0, .advice c.lookup.runningSum⟩, none⟩

theorem witnessBits_unknown {c : RangeCheck} {region start stop : Nat} (h : stop - start = 5) :
    c.witnessBits 10 region (none : Option Fp) start stop =
      .ok (shortCalls c ((2 : Fp) ^ 5)⁻¹, ⟨⟨region, 0, .advice c.runningSum⟩, none⟩) := by
  unfold RangeCheck.witnessBits RangeCheck.witnessShort RangeCheck.shortRangeCheck
  rw [h, assert_ok.2 (by decide), ok_then]
  simp only [onKnown, ok_then]
  rw [assert_ok.2 (by decide), ok_then]
  rw [assert_ok.2 (by decide +kernel), ok_then]
  rfl

theorem bitrangeOf_unknown {start stop : Nat} : bitrangeOf (none : Option Fp) start stop = .ok (none, stop - start) := rfl

theorem piece_unknown {c : Merkle} {region n : Nat} {subs : List (Option Fp × Nat)}
    (h : subpieces (some 0) 0 subs = .ok (none, 10 * n)) (hn : n * 10 < 255) :
    c.piece region subs = .ok ([.advice c.witness 0 none], unknownPiece c region n) := by
  unfold Merkle.piece
  rw [h, ok_then]
  simp only
  rw [assert_ok.2 (by simp), ok_then]
  unfold Piece.new
  rw [show 10 * n / 10 = n by omega, assert_ok.2 (by rw [size_pallas]; simpa using hn)]
  rfl

/-- `hash_layer` while the children are not known. -/
theorem layer_unknown {c : Merkle} {S : List (Fp × Fp)} {start l : Nat} {Q : AffinePoint Fp} {left right : Assigned Fp}
    (hl : left.value = none) (hr : right.value = none) {ch : Calls Fp} {pt : EccPoint Fp} {z0a z1a z0b z1b : Assigned Fp}
    {zsa zsb : List (Assigned Fp)} {more : List (List (Assigned Fp))}
    (h : c.sins.hashToPoint S (start + 5) Q [unknownPiece c start 25, unknownPiece c (start + 3) 2, unknownPiece c (start + 4) 25] =
      .ok (ch, pt, (z0a :: z1a :: zsa) :: (z0b :: z1b :: zsb) :: more)) :
    c.hashLayer S start Q l left right = .ok ([[.advice c.witness 0 none], shortCalls c.lookup ((2 : Fp) ^ 5)⁻¹,
      shortCalls c.lookup ((2 : Fp) ^ 5)⁻¹, [.advice c.witness 0 none], [.advice c.witness 0 none], ch,
      c.decompose (start + 6) l (unknownPiece c start 25).value (unknownPiece c (start + 3) 2).value (unknownPiece c (start + 4) 25).value
        left right z1a z1b (unknownBits c (start + 1)) (unknownBits c (start + 2))], pt.x) := by
  have hp : pallasBase < 2 ^ 256 := by decide +kernel
  have e1 : bitrangeOf (some (l : Fp)) 0 10 = .ok (some (((l : Fp).val / 2 ^ 0 % 2 ^ (10 - 0) : Nat) : Fp), 10) := by
    unfold bitrangeOf onKnown
    simp only
    rw [C100_bitrange hp, if_pos ⟨by norm_num, by rw [size_pallas]; norm_num⟩]
    rfl
  unfold Merkle.hashLayer
  rw [hl, hr, size_pallas, e1, ok_then, bitrangeOf_unknown, ok_then, piece_unknown (n := 25) rfl (by norm_num), ok_then]
  simp only
  rw [bitrangeOf_unknown, ok_then, witnessBits_unknown (by norm_num), ok_then]
  simp only
  rw [witnessBits_unknown (by norm_num), ok_then]
  simp only
  rw [piece_unknown (n := 2) rfl (by norm_num), ok_then]
  simp only
  rw [bitrangeOf_unknown, ok_then, piece_unknown (n := 25) rfl (by norm_num), ok_then]
  simp only
  rw [show message [unknownPiece c start 25, unknownPiece c (start + 3) 2, unknownPiece c (start + 4) 25] = .ok _ from rfl, ok_then, h,
    ok_then]
  rfl

/-- Seven advice columns: five for the hash, one for range checks and one for pieces. -/
def demoMerkle : Merkle where
  qDecompose := ⟨6, true⟩
  swap := ⟨⟨5, true⟩, 0, 1, 2, 3, 4⟩
  sins := demo
  lookup := ⟨⟨2, false⟩, ⟨3, false⟩, ⟨4, true⟩, 5, 0⟩
  witness := 6

/-- The inverse of 32. -/
def inv32 : Nat := 0x3e0000000000000000000000000000002134643429029152bc63c76598000001

theorem inv32_eq : ((2 : Fp) ^ 5)⁻¹ = ((inv32 : Nat) : Fp) := by
  symm
  apply eq_inv_of_mul_eq_one_left
  decide +kernel

/-- The rows of the hash of 5 and 7 in layer 3. -/
def canonicalRows : List (List Nat) := [
  [0x40000000000000000000000000000000224698fc094cf91b992d30ed00000000,
   0x14215a48e11832c960ff465cd02c701f6539ca12938b1826a5faef0f0419dabc,
   0x1403,
   0x2048033bd2b52333c3486961c40339dbde6e6bc67ada24d5fd15a36ec2fd5e80,
   0x172066c434213d31d92310e942d7e9c1c85e9e0280e6c2d55f67bcaabbed360c],
  [0x2143f6b11dabbc1f5af88604418f93d1c61419bc6843f9b9efc282af3a9bd269,
   0x1d7451a57e925ec563c5542ebe6c3ab794fb57dc9d31389b1e629662aa5a3fdf,
   0x5,
   0x6e0078d55acdb76b488cf801121b786158b6650401e946c9f0b7beefc226d03,
   0x10b373344341e9cf4a1c9df0203df9ec060449c66de9d52f5c0fcc37700f202c],
  [0x14dc61a9c33d2797b168207125372a92a751245f215ad60b769d0ee082e17c,
   0xdb5218be6881f0f1431d4ea7d4afc7b29a05bafbede62b55a91eb912044ea5f,
   0x0,
   0xd69180b771b6c4ad37678657d9d3ed12cc7e759dafb86d2287fce2622a5c170,
   0x3b304790c6a01674e4efeeb6afa1a42b064000886287b9adbdc378015e0e4925],
  [0x152da23fc5f0f17d4e756b31df8c694311095699d1f3eab53a7628b2961a24bc,
   0xdb5218be6881f0f1431d4ea7d4afc7b29a05bafbede62b55a91eb912044ea5f,
   0x0,
   0x1d870ce7f42e33f3d26435e0061589fb61eb85cd8f4572e352e80d88ea1c1dcb,
   0x1e5a28fbd85990d8cdac79b917d7f4cd9c49b541949bb88d208352fab7e7ebf4],
  [0x35060c25a33a7295cc40d18f9b2ce8cf2eb253a34ffbddf4bc9adb5518aaad32,
   0xdb5218be6881f0f1431d4ea7d4afc7b29a05bafbede62b55a91eb912044ea5f,
   0x0,
   0x27643616ad9287b630829d74fd15bddc48afa3902ddfcde8aa4209801acca484,
   0x312d70e6c152e8ca8383c115c3892154fc84a1ffe2c7ff41594fab46f8acdedf],
  [0x34fa4a453920edabf15bbf3c6808fba053c3d8b60440fef3e3e530da3b952210,
   0xdb5218be6881f0f1431d4ea7d4afc7b29a05bafbede62b55a91eb912044ea5f,
   0x0,
   0x106d02452eb7b1b51f4979c99dd0b0b2febdf6d9ca19a8d30e013554ac72b156,
   0x8e27a6d501354b256adfb19c0ce69065f685ccd9c9aab5fb9f7e933d88db9e8],
  [0x3a332d387147a848299a050da4b22cd5d183d4a2eb41ba78fc907b0a2f5cbf93,
   0xdb5218be6881f0f1431d4ea7d4afc7b29a05bafbede62b55a91eb912044ea5f,
   0x0,
   0x3e23de6880e0c577fae090d9e54d4a4a003c26f3c621e7e7572873772e5b4169,
   0x2bc1b730ad135bdb4b6e6b129e85c76e337eac79da4803b41eeaa184208b510d],
  [0x1e7c8a69ec706552d88c4952e0b6437c04878c0ebfe7662f2f92e7d93c61b081,
   0xdb5218be6881f0f1431d4ea7d4afc7b29a05bafbede62b55a91eb912044ea5f,
   0x0,
   0x2f2c935abbcc8a94a80a9d6d17afba18af4a82ec8789a3c674f139e66a226c74,
   0x247b329a6e3bc43d650c58118d9701425738eeae05ac346a208fc6ddc687d6b4],
  [0x64db9a9017df03e999c12844f4ab16f2af1c35939961d7fcba970c490fe03df,
   0xdb5218be6881f0f1431d4ea7d4afc7b29a05bafbede62b55a91eb912044ea5f,
   0x0,
   0x28f540d19a5bfb7634ef923d5e0fc7885aa991f8df2201a77a08c93636ef4710,
   0x2868fc147f05d63873ae288d11d3d454221e9ad00779165ec0cf5c030a78b14],
  [0x31d2fa3fbe8d968c2bb037c7a8259eea20bcf25fd7a3b97655afcc2b3dc76d5f,
   0xdb5218be6881f0f1431d4ea7d4afc7b29a05bafbede62b55a91eb912044ea5f,
   0x0,
   0x2f3fab7c9c735aa3437699920684818aeab59bfe1081ea6cae60bbe046dab4d9,
   0x36e0f81909cdf80ef59077910bfa42656e4fd982326c933d280bbbc87f3146ea],
  [0x4b0d0ae6765fa0aaca7b08af55da4e327e78962774e21694e3dae3e7f39e4e,
   0xdb5218be6881f0f1431d4ea7d4afc7b29a05bafbede62b55a91eb912044ea5f,
   0x0,
   0x5fffd6f5ed9b1a3eb6b7db00a13cf254b0896075b856c8de23c48567584c478,
   0x24e82174b140283773950dd25957d123d56796bf4d1da0668c2e4e856f53155e],
  [0x1ac4a11d355de6eea7dd407cc29121aac144eb2c0635ffaa0a82c8fc11f09bec,
   0xdb5218be6881f0f1431d4ea7d4afc7b29a05bafbede62b55a91eb912044ea5f,
   0x0,
   0x33f3670d18e66d33fef666d3fcd22ba940e65f1b7efe61230be61fd099b416c7,
   0x3a48045021d5021d07435396ba9595279baa6bfd9f5e313daaf69eb840dc9f3b],
  [0x1f383e019129e19a83347101d39b6a8cab28b9a27a675d9d4bbd5a2fa34fd2c2,
   0xdb5218be6881f0f1431d4ea7d4afc7b29a05bafbede62b55a91eb912044ea5f,
   0x0,
   0x260d134ea181cd6d5b91bd5bce5b4b2cd37c5594a43bacfffb193de5cb935f0,
   0xc4b410946ee3f3ac6c8160eb95e9548583cdc6a6dc986e35a756ec7ffc024ce],
  [0x2bf9fdad048884d106cfd818808c395187f71f8b6d8d779b3f943d3edeb2a69,
   0xdb5218be6881f0f1431d4ea7d4afc7b29a05bafbede62b55a91eb912044ea5f,
   0x0,
   0x3626a05400939a451dc6ca9745b559740bb44413eab9a101fe8cecb7e40f2ca2,
   0xd2cc0999b8fc5be830a5a7e2fc482e7a5ba7f6862ed18b586f7edd79b782788],
  [0xa583cff31100919aaa8cd282629c499511f3353ea4fbf4b43179f944e40c359,
   0xdb5218be6881f0f1431d4ea7d4afc7b29a05bafbede62b55a91eb912044ea5f,
   0x0,
   0x29ac078458db723f84f7ac567831ff04efbbdaf0c0d8c4e7be1e592eb2edee14,
   0x1641491d22e44fd42a89f95fbf3d109ca7d2df04b1b2bbabaf0432467231911c],
  [0xd6b41749c7fbae148d66e0aac4884b62ad169abce73da19432f460a919a347e,
   0xdb5218be6881f0f1431d4ea7d4afc7b29a05bafbede62b55a91eb912044ea5f,
   0x0,
   0x36060b0ba9424b4500b5cb6b56a979f426926aa7288214661b3f7233c0b6cdd5,
   0x38f7a4dd7cc33d1bbe0b86d47a09b4ada250e57444efd63b1aa2ca01a10d9300],
  [0x1a3fe4d9ebb7a8c55c350c955648d0f53755b0d2fc3a5f1ac97b78caae4bd459,
   0xdb5218be6881f0f1431d4ea7d4afc7b29a05bafbede62b55a91eb912044ea5f,
   0x0,
   0x12bfe1a860063463feea3f531d457b60ffeeb309579e3192500b3554e7e3042e,
   0x32f79e1cabaffceee2a41b2a210690e59659c08402f924620880454ec3ed0aaa],
  [0xe2d511dc5131b53ef1ab305e9e6a35bf307cd9b9f6c81e61f4db1ec303fdd0b,
   0xdb5218be6881f0f1431d4ea7d4afc7b29a05bafbede62b55a91eb912044ea5f,
   0x0,
   0x9262761a0ad6e6a23e27cb16d19a38d67545fbac8b7bf7435775719044430dc,
   0x1c2e4aa79d0ba946084b1a1a295f2c24399a7531999ecb1571805e18852f02b5],
  [0x2ac2e44d2d5dcb3e39ea70e3ce50c77f961acf25b9341220a6e2514f5cf9d4d1,
   0xdb5218be6881f0f1431d4ea7d4afc7b29a05bafbede62b55a91eb912044ea5f,
   0x0,
   0xb398c7c5e58ab6e2140f2bdd144318583b124522e5a8e21cdce95892f773d4a,
   0x177965250ef1669f8afd1db86f56a25f135b0b2d3f19cbe6be1fb69953522b68],
  [0x2bb727594b7d7afd0497e7c1637fbed90b8e76c80bd15af59e5da4efc70b12ca,
   0xdb5218be6881f0f1431d4ea7d4afc7b29a05bafbede62b55a91eb912044ea5f,
   0x0,
   0xd75004058c46f4a1412766142d2914af384cda2d23698b5d34b40a6f562a6b3,
   0x19e60547a0a0b582911703671be95a100c3b18629a5ee5e17a41ce7eed863a86],
  [0x25453972b74b16dcf04f8b35726ba89d59ff3217a454b733987587ab68b638cc,
   0xdb5218be6881f0f1431d4ea7d4afc7b29a05bafbede62b55a91eb912044ea5f,
   0x0,
   0x381d1702bb380ca7f5e85d23432346093cd0835759253ef04cbdd9392c81a01a,
   0x22dd740fd2e45b7387f4440cb06090df4fa54c62f0ac0423cd486200e3e3aa83],
  [0x109bc3eee58db22eee2e9d7b867bbd9a3664c8a11155438aecc448104ae3f94a,
   0xdb5218be6881f0f1431d4ea7d4afc7b29a05bafbede62b55a91eb912044ea5f,
   0x0,
   0x2ff989fd8f14cb3b50797a9b35333eb1710619f23c0b0d6da1a0b1471614e745,
   0xa0ac1e0c76579f0aab4d0de78cf1d5fb932ea0e0bcae79238fe5975480e4a44],
  [0x2d7587a0a3e8890dd55e55a1280f14dc99762a1b8f911af116d6440eb926e903,
   0xdb5218be6881f0f1431d4ea7d4afc7b29a05bafbede62b55a91eb912044ea5f,
   0x0,
   0x2cad9f34f506154c83fd0a23d01ca617f57c61c37e002843bdf1f1529c86bf9c,
   0x17b51db96b3c68648d28ead939bc5ef9d31f7b0315a314131222a0065de2b765],
  [0x2a2a353bc075310ee1d0a81c137ca6055d12fd97bc467b5ea52cc12ef2bfbf79,
   0xdb5218be6881f0f1431d4ea7d4afc7b29a05bafbede62b55a91eb912044ea5f,
   0x0,
   0xcf7d6d56daebc983cecc032c0cc8bfdfffaa6de0aeffa8b58b5d4aa1548be0d,
   0x3566e12c39f28a6a90bd59b19aa1ab3c71e21fd771edd5a415b0279e4dafc3fb],
  [0x716015f06bdf68370de7822f6a519990ad6cf468b5c169a4c43487c30e5c1b1,
   0xdb5218be6881f0f1431d4ea7d4afc7b29a05bafbede62b55a91eb912044ea5f,
   0x0,
   0x5e71ead18c6b131feeb30caeaf10f9ed6e093999939ae512c75c37fa4f9b98e,
   0x24c4a5725525d36bd39f4f3b676af436e8312615b612c2eb51e90e5f7bb43628],
  [0x1dd3ff73b362f199ddd8cada92de12dfb275607f0bbcc7e17a20b090c21ab39a,
   0xdb5218be6881f0f1431d4ea7d4afc7b29a05bafbede62b55a91eb912044ea5f,
   0x38000,
   0x208cc454088d99de007090d5c79f3618067b5570ae4b599ab9be6643d919f34a,
   0x2c6b21a2e9e6d7fe3b518efd4bf385d0315c43a48f724410fdf91548cde90304],
  [0x1525a0d9fc917af92a4c175bb4dbbf2762ab40cd34b3830a1ee1ce73027f85bf,
   0x1461a8e640c8f85ae85ec0c886265736901500b523c1e447a45383a9b4e6a758,
   0xe0,
   0x42664e95dfdbaeb763b566b8605160d71552ba06ef33f2b3178497d999a13a8,
   0x33381244e51ab789c3576a686fdd8fec512f3dc75218fc6ff8f2be0c717b578],
  [0x3238b029086664d731edbaca64987a0214cdabb33c6826fe27aa93cd917e3d69,
   0xdb5218be6881f0f1431d4ea7d4afc7b29a05bafbede62b55a91eb912044ea5f,
   0x0,
   0x27516f2f587d1fd04dd77e7acdca5a00f255ff19ce5d2ec1da0ef92fc5ca5064,
   0x1d46a937b8c37191805baf7c16747837f3786cdac5b85b120a18ccd9c30b56f3],
  [0x11654fdb5a29179a824291cc71384b963e116dc11b94b348ebdb7a253d5067b9,
   0xdb5218be6881f0f1431d4ea7d4afc7b29a05bafbede62b55a91eb912044ea5f,
   0x0,
   0x25b0f3cbaf1f1eeec59b141d701796d33e5094b9c45bf03a28959493bbc6ac9d,
   0x872307b44fa2a5421b7076d6f56b739bb9d25d15af8443890c608f9432336bd],
  [0x742efe0b836595f1176ca86f28458d111f8526b13275ddb828e1f695cdfb0d9,
   0xdb5218be6881f0f1431d4ea7d4afc7b29a05bafbede62b55a91eb912044ea5f,
   0x0,
   0x37be1637817c81632c6f174188332ec9bc7320a95ec4662bd08f2f71c53d05c0,
   0x28e5e9f38291171a9d9c9af67b175bd4307431c9fe5292d1c1302ab4d2a45a1],
  [0x1ec522b0fa516ef9da38e0fcfb241f2a301f0df287496ef8e2355bf61a37409d,
   0xdb5218be6881f0f1431d4ea7d4afc7b29a05bafbede62b55a91eb912044ea5f,
   0x0,
   0x1a8ae28f4b021fe384e0597788156d0ba6286fac51c562781f56b619986f9f35,
   0x3c17ecbe1737b2bba3a19d3d99dc57645bcab1ce9f587a5af16930719b7a674c],
  [0xc09b7ec90b9f7c82eddf64b6495a55aaed99eec9621b03e80c50c1cec0c3695,
   0xdb5218be6881f0f1431d4ea7d4afc7b29a05bafbede62b55a91eb912044ea5f,
   0x0,
   0x147499209bc767a7dd02775c0f7b177b554e2e349036422180266691662c64ea,
   0x10501403b16c8b1b0ba34efee491f6b0f7b0e4657d8a67d1ca4769a0d1ba58db],
  [0x3419236360baa4a1df80d480f11313f2cb743a68c41adc34164013904abdbd1b,
   0xdb5218be6881f0f1431d4ea7d4afc7b29a05bafbede62b55a91eb912044ea5f,
   0x0,
   0x1baac6ed52238da49b23b93a758c405b4b5e8390946e4f53883a0ef7729a9fa4,
   0x2d8816edaf9a7609a6fd232fd54382c0f00bba5add8af75f54a98ef9c3263543],
  [0x3e3bee4959748adc07732d2207b08cb47f14f10b08d4ce4d5b835f07a24b447a,
   0xdb5218be6881f0f1431d4ea7d4afc7b29a05bafbede62b55a91eb912044ea5f,
   0x0,
   0x394e5d3bbc44cff9232189a7a9dea48c6a6e059a8ad8a15f005ffd4b98b74199,
   0x3f9ef0e01660664c8f63452100b9ff9b7ae11c5a6eee0d7fc90fe76e2fb95fce],
  [0x1d5a5cade9c20031930fd1a92be0d46a508719f727f8b8b7e186712841d9bbd5,
   0xdb5218be6881f0f1431d4ea7d4afc7b29a05bafbede62b55a91eb912044ea5f,
   0x0,
   0x360e14a78daed0f7b66ee3a6a6b87f2e8b6d5fb2d90d74bb0b6ad24feb354267,
   0x252c7f0fd0ea0cbf585a8095a5000882ae2ce721914e36c6c225e1eeed79d22e],
  [0x3a75d335e64007cf030146cded0afa33ea1ad444b9c334dfc8075825697a3034,
   0xdb5218be6881f0f1431d4ea7d4afc7b29a05bafbede62b55a91eb912044ea5f,
   0x0,
   0x2bdc34876e6c124d0a18da78ffb6b0bc762d2caa88f05cf30fafb3a9488cc781,
   0x2d5dd17decf947b654fb573dea22f566d1552a2b2f125e13fd113cdc1ec4797a],
  [0x9ae7b04df796d18ed5df93c6196624faae063580c39be418110a4d2a677f4a5,
   0xdb5218be6881f0f1431d4ea7d4afc7b29a05bafbede62b55a91eb912044ea5f,
   0x0,
   0x22c912ad82090e5ae4a51ca3365ff61226e2ff9cf73987de8cd32d57cda131fe,
   0x3f79299070ccb95dcb6b1f13fabf81f8282989767834c02902951561fa71d7a6],
  [0x1b53fdcbef3f834dc51c31cb82ae7b7ff0130ddd448b67e4832d1a4f2c1f3cb0,
   0xdb5218be6881f0f1431d4ea7d4afc7b29a05bafbede62b55a91eb912044ea5f,
   0x0,
   0x1f0327e7145927ee964a71870d2375a36dd7ddc91abfbd6b39229311cce1c573,
   0x3af7fe3bca3868b5faad453dffc463cf9c2f5f83e0a1bb3488d326b14bdf1a96],
  [0x3b41ae131acb2e8e10f8222113edcf7aa195a9b8ce97fd6f4db4995d85710ac6,
   0xdb5218be6881f0f1431d4ea7d4afc7b29a05bafbede62b55a91eb912044ea5f,
   0x0,
   0xf401ef238c870ee152ddc5c5727c9a5b460a163963f45c9f95ba8076c90f795,
   0x24794d57d4b234c997ee42aea63101ef311c1fa728bcb57ad950b24389e00df6],
  [0xd114a6405deeccab68a271bbe93d3573569ecdc2f726efc07ecc103b10d872a,
   0xdb5218be6881f0f1431d4ea7d4afc7b29a05bafbede62b55a91eb912044ea5f,
   0x0,
   0x20ed1d23ce119a158d2e1aedf1d29254d4b32b9f7ba6682b6fc2c6fe4bb0c416,
   0x36842e11b34b15b4bc8683c3430eaf09f7677d209ebdc55d8692fdeb5631c596],
  [0x15eb3f62b9c3cd5cf8227404b4abfc1b10c6d46a13b0d84a5b0c3f9ef17385ce,
   0xdb5218be6881f0f1431d4ea7d4afc7b29a05bafbede62b55a91eb912044ea5f,
   0x0,
   0x3761fcf13c5ea5e3a428c5eae3315169e08bc225ff752ef27c9859ec3dd4ec0e,
   0x3d14fb3d48d45621bfe1f8e448e31384adbc4a3b041bd55e3c63aa363e17f411],
  [0x1f7cc1ee3521d172ab05340703432fbdfa2d9596177505e9108511d6dc7bf2b1,
   0xdb5218be6881f0f1431d4ea7d4afc7b29a05bafbede62b55a91eb912044ea5f,
   0x0,
   0x339900b2d2fd371864633ce3dd26e1f972519c0fd77decb099814df3a6498141,
   0x14198d7e6db502b67c2dd16be220b32600c68da82ba1b18e03fb84497f4a64e1],
  [0x2ee76f8138e18812f4f5244a2a1bc3d24520ee3b6914b345d108661af196591d,
   0xdb5218be6881f0f1431d4ea7d4afc7b29a05bafbede62b55a91eb912044ea5f,
   0x0,
   0x3ec82316ac6558766e7c9f1864bd66316a970de44903144653541ffe9b5a9026,
   0x2873be03e019f2f14e72f9f8a2d6906f436beca3dcf4daf70909ebe1225e3e39],
  [0x2ea0d8791f0d6eb7a34d3cdf272e7ef3af05472e47f303fe568ecd9ff7bd9258,
   0xdb5218be6881f0f1431d4ea7d4afc7b29a05bafbede62b55a91eb912044ea5f,
   0x0,
   0x111a7db6e527bccb449dfcb5c03ca8d7e33c05137afdb8fd4c03dc092fb2e04f,
   0x1358ae72ed3aef52a81b72577e994f25a85a89df7a4adf19b049199262d22f42],
  [0x144be9ef2587decb34d39709bae1088279c43dc3f42c839ea40f6aebb506cdbe,
   0xdb5218be6881f0f1431d4ea7d4afc7b29a05bafbede62b55a91eb912044ea5f,
   0x0,
   0x10fb201b998f8e421f193033a85daebc0bd79805d8144a13289daf0acda68131,
   0x2e3f5eab59ba06460720271c446d9f2e7d57fd0d996947436cbdb71ce1b797ac],
  [0x357f4ba4867fe418b8bd9f37d3ea0fc35d587f690afbdbc334a22a3753c88da2,
   0xdb5218be6881f0f1431d4ea7d4afc7b29a05bafbede62b55a91eb912044ea5f,
   0x0,
   0x17d324f27fa9bec2a6a8d857018b39e1e1fd241cce90b669255d339dc21b232d,
   0xc2c2535489d29507ed4770853b5ceaf0735a17bfcda472aa0affcb647b3ff45],
  [0xd0d7173b74dfa23151a2f75bbc7ea354e44521bc2fbc1189d7264012eff4afa,
   0xdb5218be6881f0f1431d4ea7d4afc7b29a05bafbede62b55a91eb912044ea5f,
   0x0,
   0x30948bffeb430359091dbbbd9cfdf1a07b7e59e72cfe832042617db76380221b,
   0x257b01eb052e43a7da8d23e47c9d7b5e603801709fe269398a7f952266d68c4d],
  [0x2f21abf6bef32e83b31ddc7a3a40f33dc81ebe83e71cd21e2d08a100b70d36b8,
   0xdb5218be6881f0f1431d4ea7d4afc7b29a05bafbede62b55a91eb912044ea5f,
   0x0,
   0x28ab4aa3f3dd0adf282bae450f7928290bbad4c7830622d2e6b826fc8d7c7c79,
   0x281f4f197b5e0e80cd8d415fe0c19c87636f770723eac1ce531735a69e01b65f],
  [0x31538d6591c4a985adbdb17c2ec288c5a25ab6c3a95a9af3c9db14c7ff0047d7,
   0xdb5218be6881f0f1431d4ea7d4afc7b29a05bafbede62b55a91eb912044ea5f,
   0x0,
   0x1caf2dcd73594c9acaa976958ca157be9ba76f4d88fa474d39c9a8e8de72af38,
   0x20b9918f98dfe08f43e296a7f3beb3ad03561a579381a886ced4a0d0b1b17ba5],
  [0x977dbd4d89fc722dac666d811021c2f7e145d0e967549bbe1a59a1be71ae00d,
   0xdb5218be6881f0f1431d4ea7d4afc7b29a05bafbede62b55a91eb912044ea5f,
   0x0,
   0x3840d705e4f395157cc028023f865e084f84b6e0fad74dc813ff1681e4e8fad,
   0x35e34912eef7c5eccbb23c1ec202ee8e67ebc2ce7ddc036dee5be6c13858e5f5],
  [0x384bdfab97b8ba17806219588ce8af576042862d79d015d461f2acc4b194ef3b,
   0xdb5218be6881f0f1431d4ea7d4afc7b29a05bafbede62b55a91eb912044ea5f,
   0x0,
   0x229f2491c04bb4f132c8e758f456e24ff9a3d55fa542d401507d72f056cf8325,
   0x35016da8661d4a59bbcc4bf3b019f51d222b24ecb78789cf2ffc9438ea914677],
  [0x1389c5a37bf4c95838b038d0bb824d82020c98b04d3d469bd2fbec19e42bb238,
   0xdb5218be6881f0f1431d4ea7d4afc7b29a05bafbede62b55a91eb912044ea5f,
   0x0,
   0x3cab20c6806d3f13849114a1c114a7ffe4e28c0cde56bffe5b02f9f05404d170,
   0x10f03604e4e114dcc03f1d4eb7ddff2b76d8bd6290366bd144a0126d2c2cc6bd],
  [0x1d8c63c9b598222b3de7d7a210ae9a2de84cae84f7ab4e411d54a128da3f38d4,
   0x0,
   0x0,
   0x223b0367d280851c6d18a4e6c85ff1cd7326355a142ca18c8e4221f3f55b1962,
   0x0]]

def canonical : Content Fp
  | 0, .advice 6, 0 => ((0x1403 : Nat) : Fp)
  | 1, .advice 5, r => (([0x0, 0x0, inv32].getD r.toNat 0 : Nat) : Fp)
  | 2, .advice 5, r => (([0x7, 0xe0, inv32].getD r.toNat 0 : Nat) : Fp)
  | 3, .advice 6, 0 => ((0x38000 : Nat) : Fp)
  | 4, .advice 6, 0 => ((0x0 : Nat) : Fp)
  | 5, .advice c, r => (((canonicalRows.getD r.toNat []).getD c 0 : Nat) : Fp)
  | 5, .fixed 0, r => if r = 24 ∨ r = 26 then 0 else if r = 51 then 2 else 1
  | 5, .fixed 1, 0 => 2
  | 6, .advice c, r => (((([[0x1403, 0x38000, 0x0, 0x5, 0x7], [0x5, 0xe0, 0x0, 0x7, 0x3]].getD r.toNat []).getD c 0 : Nat)) : Fp)
  | 7, .advice 0, r => (([0x5, 0x7].getD r.toNat 0 : Nat) : Fp)
  | _, _, _ => 0

/-- The same for 5 plus the modulus, which has 255 bits, instead of 5. -/
def otherRows : List (List Nat) := [
  [0x40000000000000000000000000000000224698fc094cf91b992d30ed00000000,
   0x14215a48e11832c960ff465cd02c701f6539ca12938b1826a5faef0f0419dabc,
   0x891a63f02533e46e64b4c3b40000001803,
   0x2048033bd2b52333c3486961c40339dbde6e6bc67ada24d5fd15a36ec2fd5e80,
   0x172066c434213d31d92310e942d7e9c1c85e9e0280e6c2d55f67bcaabbed360c],
  [0x2143f6b11dabbc1f5af88604418f93d1c61419bc6843f9b9efc282af3a9bd269,
   0xd3d3c7410d446683c80b5f824a75f24e055272f8429ff1c7e7ccebdac44118f,
   0x224698fc094cf91b992d30ed00000006,
   0x1a534b8d3602aabad8829982b42c5243f74605ad7bd86d03f7c29464d7ae0b3e,
   0x2ca30a3f5cbfc653fcde44467f502789ff7ef2a8c5922109c885a18289482ef1],
  [0x34f104e94e36c7c50d335537fa13ab16af765bbf74d93aa659861434b224776a,
   0xdb5218be6881f0f1431d4ea7d4afc7b29a05bafbede62b55a91eb912044ea5f,
   0x891a63f02533e46e64b4c3b400000,
   0x806b4c79b3d0918e2fed20f48ae82cdf6b77667e5a66d72792f66a3e78f8957,
   0x274af5098a9c5ca56d77018834ab0e3b3def01f3d23ab56036cba4216e4df0b0],
  [0x1e7dbddea0047792532a990820683c6a38999ef89c42e350de2361be70973fd8,
   0xdb5218be6881f0f1431d4ea7d4afc7b29a05bafbede62b55a91eb912044ea5f,
   0x224698fc094cf91b992d30ed000,
   0x2990f93e65a331a089b0811be734459c9157000903b2a16fcffdb294eebc0b14,
   0x247a018d31db5e8f7ba7733316b0ff065fbd3c87fb28aefdd4bd5062f206cae9],
  [0x3ec9df5d88783efbec47583aec3590c8fa72664f8b4017efd50756e8514a52d5,
   0x386b3799e10976131388bf8beacf630e1a8572f4fe6f532550afb111437664df,
   0x891a63f02533e46e64b4c3b4,
   0x1c4ca0d56e4482af2524d08ed4aae376e61e61115f4ab2c8d548d25b3c5638d,
   0x38c52bb083165565ae0885b00a0fe4c9d813e484e423c5a86169ba089b5f4beb],
  [0x3075e53d4e0ef310fe5ea0b927be3632f8a2b189d13732a8921f2efa1b8c6db8,
   0x80cd18c035f3d1cd05a440341b8fe0e5380ca6ce9ea0b1a49c871c261df7cb6,
   0x224698fc094cf91b992d30,
   0x333a3b2a6a4bdf5db8e293dc2e1e4db56660268a1d3ae2bdaf7d9423b99a0193,
   0x3e5d6084b848ebca97f97b5334b07cb11ae90ebc4a64c34e64ab17ec64bcf1bb],
  [0x30c2e7f5deb16809e0fab284f6a1ff95ad8eef2f5db027d0307bb3e65d2ed755,
   0x1bff98493f9c61f3eaa248f9cc192e8e7b6fad60d7b078d4d937daf5c74d37b5,
   0x891a63f02533e46e64b,
   0x379fbf0cb59e955165f0920d2d48208140440f9ff962dbfd22c320a9572358b0,
   0x1a0c7629ec8181b296331cb1012677e71ea7b10e9ff5c4a75bdb0d05c76fd85d],
  [0x32f9ea52af22e2d24566a20cbaf1ce8244c13787dffdda5f26126bcab2604aad,
   0x1b80855f52e265f14ab27f51e3508d9ba72970e774eaf665bd9ca11dc9d147c4,
   0x224698fc094cf91b9,
   0x932e0b58c86a6a3d2c2548fdc920cac79aeb112c57a0a5d386ff962f015df48,
   0x323073af575518535f68668a28d8215a0bd763fd0e444ddac04970d91db5f3ee],
  [0x1cfc4ee74c7f5a4c8ae8b54a2174cccebbcaa24f8e4b0d23ed4e2800fdcefc8a,
   0x2b7d7f9a0bc8cf07fe4ec3e95c514cd9ee8abd72619983678c8407148c42e400,
   0x891a63f02533e4,
   0x3935518c6957dee4cb6e7955579ef240aa57b4f5c4af9957ceac47a49212347f,
   0x2dd6597a36351a8b2ed6945151a02934bb3900115e3c491ca9eb7f66124c14a5],
  [0x3fd4d43e6398d5b02a8b282991bb0cde47243663c656ac5e6381c1e3654c8899,
   0x3e01114fd579ff3534d9fc8d9af286722874cbee5feca088847f2f2eb09aa283,
   0x224698fc094c,
   0x3be6db3368d57ff9c8b3075b579d7c1ee015b10c1afe11a654c13bd32d5091dd,
   0x3c64805e0512b2c8adae09aa116da94327662151153ed3af0172a7cce49fd4df],
  [0x12b60b44dacdf582edc1f08bb32616aa567fc2eddd89d091fabc98a0787cb069,
   0x21ab30c38b387741199548951bc7bb3e7d0f0335d240a72f923e5ef9fc71838b,
   0x891a63f02,
   0x46c1f3f0b729f60296ee634e3caec6edcac71d50b9af486e9c605160baf990c,
   0x2996fdba78815dd865e57e498fc3e2bf3d5a26530a6c18dd3874652b4082727],
  [0x1a0b4f8e64e7cad21453b9f6fcf5bee8b625332aa3b373ce35958370327ddc78,
   0x3961400e4b13e385a3465bd117786f23798724b422bddbf32d659072d56e5b18,
   0x224698f,
   0x36ec360334f325dc4f62c574cfbfdab231fb407a3998695cdf9ff2cbd3ef1590,
   0x36ae71a39566ad3d46ef34e10a142c9e87798bdacb90dfaea96d814f0abbe40a],
  [0x1a7b5a9096cf95df497bebfac487e43a0b73510116059acd6049509d51fc265d,
   0x31018876853f6e11b2301c5c58764d852e2ea2b6cd637b9eb07e39eed55319df,
   0x891a,
   0x2992cfec31343e9d2d48c4fde28132182b13037328a47dfdcf0e6817177323da,
   0x32082c20a544c7bf99169f79418cd99bc9e983d23b2c1de720981aa274db50e1],
  [0x16a0185b9b5ec843dd230bc696696ee0bf42cc7da2940850ec808adeaf0b8cd5,
   0x1a9d4bec204e8721f05e00a14f4b8456fcc246492c302652207b16e8cac9dc4,
   0x22,
   0x2be3aca1ba1006da069e594c5e2e8b379a94ad89a0e6e8276853907d84d4cff0,
   0x26c4bdf16bdcc43f613bdf72ad4a43fafd3d5ad05e190bfbc2424bf1a2e41e6d],
  [0x1d58bf28d4d9f2bbfe1765b0ddc0e984ddadce8ee6b147402304c591341ce821,
   0xdb5218be6881f0f1431d4ea7d4afc7b29a05bafbede62b55a91eb912044ea5f,
   0x0,
   0x29fcc7bdeb8cbd1cb8ae25ebc1b7e73a20703614da496a5e51de35ca9e6265c8,
   0x2569d5a9166996a0f831d0b8a502c88f6d852a65507b64649f8e77d40e8eaa6f],
  [0xe98820103f0c9935799fc968aea3fc2484b0bde63e18091a969ad6e1bbfaea3,
   0xdb5218be6881f0f1431d4ea7d4afc7b29a05bafbede62b55a91eb912044ea5f,
   0x0,
   0x90c45a522dfcdb3b7a6492d9913a8db5ec9531dead5443d7f91e1d1d7371e9b,
   0x258e44a44f61d4c88eeadeef7f6489dd2a144e0eca9aa45b4763c4020b09cdc2],
  [0xf272b068ef10b397337f6d087155f5a18eadf594dcaf7ef840473484ef5dd2d,
   0xdb5218be6881f0f1431d4ea7d4afc7b29a05bafbede62b55a91eb912044ea5f,
   0x0,
   0x115148ee7c542a94a83848d3eaee42e801e10edf21a9eaf5bc9e6604d931e41e,
   0x5a029b2786c2127a2a3a8ecc9ec8f598e14bc3dcfc48306bf59599d38c3d880],
  [0x304705703f93fc5008b2e9495b3639362b880731965036534e53af04390cb18a,
   0xdb5218be6881f0f1431d4ea7d4afc7b29a05bafbede62b55a91eb912044ea5f,
   0x0,
   0x18162b8e80cb3460c543ff6d44dfce5f42cf01b131cd5cb3ab3ce0b4671f61d8,
   0x3b15717604ed37a72b7c28152b5573c834b86c5cd7633c639c6e7f39f5528aee],
  [0x6a061b738f105ea979b81f5d206e0f1c8ce70d9332967fef733ebe0753c244a,
   0xdb5218be6881f0f1431d4ea7d4afc7b29a05bafbede62b55a91eb912044ea5f,
   0x0,
   0x30fd5664ba826d852764c24caecc3f1df1622ed463944aacc86006b3a8ffe8a0,
   0x2b603cf74a93595c8809d802c788035a2023a1b9e5746e3eb6530dacebb1435e],
  [0x2322d269a82cb4ad48e9f5687d976230fab9748dba982cbee5b681a9a6e6b3da,
   0xdb5218be6881f0f1431d4ea7d4afc7b29a05bafbede62b55a91eb912044ea5f,
   0x0,
   0x127bc651210485e1c9210fd6d31b46ab7dfd878a81e9fdc75d28ee3b0d3adc98,
   0x3e8c6d920feb3d99baf6eca363aab04e191c69b1d01eb2ea8e796335f8011e57],
  [0x1270ad464d94d6a2c77c271b048ceb1d069e10538598db398163cd7ab0f2d952,
   0xdb5218be6881f0f1431d4ea7d4afc7b29a05bafbede62b55a91eb912044ea5f,
   0x0,
   0x3c0ecdb8532352597d0da3f361b844187030943c8412bc8f21b01a2e4032c9bd,
   0x3aff1323abc62266f00a2bdb29fe95a07e048863e1296ad221e34a8918263a3a],
  [0x25f2bc21494134c4ac0d1bc25ddb9dd28d4a57a76ec85d053837063f91f092b3,
   0xdb5218be6881f0f1431d4ea7d4afc7b29a05bafbede62b55a91eb912044ea5f,
   0x0,
   0x22918dc11309701037e6ea1602378473947fb9081b22efbf0b2eca3f3c372d92,
   0x13b0ad102563042efd8f44c82376988efa176afbf390b018711e34d1c28a6445],
  [0x1ebbc166bf2e43e976e331c95e773aa8166212b06840dc2a676f02f7b79c130e,
   0xdb5218be6881f0f1431d4ea7d4afc7b29a05bafbede62b55a91eb912044ea5f,
   0x0,
   0x2509daac142441512edd6faf3d5ba6d3615affd9ecf4a997fae5d06c94e30fa,
   0x269ee4715691c3cc09be958528216993c0d3838a424498671431bc1ef7a9377f],
  [0x1a288a60517f6c5303c1d1080fbf31c122390d8e96d6123f7e25200a82922539,
   0xdb5218be6881f0f1431d4ea7d4afc7b29a05bafbede62b55a91eb912044ea5f,
   0x0,
   0x3e8bdd68aebbd3867639415141ed2a48deb0c7df82ad10553ec18bebeccd9c90,
   0x39b15e4dbcc072b68fc0cf985f19092907b83cc8b5a6523b4b006bf6633de678],
  [0x22455e91aa81e37d6cabb185037dae760dfeae07f55e53f6f8bff3fc5baf398e,
   0xdb5218be6881f0f1431d4ea7d4afc7b29a05bafbede62b55a91eb912044ea5f,
   0x0,
   0x29dbd891b92c856f1446bcae3a23a40bda02024ea0763858991c42a2f265c390,
   0x2d6d1aab7ab7724fc8ef2a5fc64b7e37139e2dcbaadda1a90e10c94e6be2b04c],
  [0x3bc0d1dd29481bacdcc1105cb9c7cd35d9fa4930aae0657b854850559b4086b2,
   0xdb5218be6881f0f1431d4ea7d4afc7b29a05bafbede62b55a91eb912044ea5f,
   0x3c000,
   0x96fd0d908c89f9c1ade1b907d27f7c272f1b246272990f281b6d738b9391bab,
   0x25ae9cc7eb67e130f3be858ef1f864cd524538642905843d535e9855a7cabe29],
  [0x20a2e9b2cbccb6cbad0ca7fb87294a75885da7116aa86969496e328b757b2493,
   0x34aea666fa73373ef9d1acba99ed08d55f389101f1be4e2835958bfd2887b46e,
   0xf0,
   0x1a73ab5be99989e2d2b472d5657401e96c1181c749d5fc6bd350876ab6de9dad,
   0x2f4f89f1bec813779b33e37ec2df1416527de265ca2322c1b37431b6d7c5f78e],
  [0x3033bb6e2df559c496af2f951b849b3e871dc1e7f1c0d29514e933bf31cebf18,
   0xdb5218be6881f0f1431d4ea7d4afc7b29a05bafbede62b55a91eb912044ea5f,
   0x0,
   0x2f7cf2d261b20e1e71b87e4eda0918ab578c8f4ccd1a6e9de6c45b31cb8f9867,
   0x1f5b908ffd44e4364777c1a93bdb4ef3eb0c8945cb939bf461231ef653d3800a],
  [0x14bab547dd23d991fb9c3a16f21dfefeab75b42dfa84e3a5a280a614398508ed,
   0xdb5218be6881f0f1431d4ea7d4afc7b29a05bafbede62b55a91eb912044ea5f,
   0x0,
   0x2102041481eac57ba60be984c033cee6ea510e72a25c6a82829dff36a49f83be,
   0x199cd42361b29af5e46850b0ac3b6426feef9935ae4d58136a05b02e31f08d9f],
  [0x4ade7de940d3764b07f17364abca712280991d44841a25718d4a99be9d707dd,
   0xdb5218be6881f0f1431d4ea7d4afc7b29a05bafbede62b55a91eb912044ea5f,
   0x0,
   0x2ca1cbb754146a73ddf5a6e0db46f1e02f71a746d917e56790b4ec7ff21b07ea,
   0x13072c4ed4a79b24529f59d7ee8fd1de4de708ab471627e6a92be97a587418e5],
  [0x14fef63d5aa61d9d2bea79299c50758942ebd24fff5db7d75dc771368b2031ea,
   0xdb5218be6881f0f1431d4ea7d4afc7b29a05bafbede62b55a91eb912044ea5f,
   0x0,
   0x63a2d31502bfb74ab1ad3838f2f801ca5d236dfbc7e7accbacf667d43389594,
   0x122afbdf0d4be73aaaa23d0f3dbae6100058df6222ea2c148064621e2bcf5ef7],
  [0x2cb8189a3e8af7cc1df32e2d2a9085da8d5536fc5ae3664c6324cc7be10dafd6,
   0xdb5218be6881f0f1431d4ea7d4afc7b29a05bafbede62b55a91eb912044ea5f,
   0x0,
   0x3b4ec1b34f0f8da97b3772ba4769c3328353f684e01083b2a2684941b4b3a8e3,
   0x3987e7199560f55f34a779b7a67d586179f66d6e5f29789743fc591199313ddb],
  [0x3eb1d355ad9c4973088284c465c408ad079dc9fb57bfbe8db8bb434932bff92a,
   0xdb5218be6881f0f1431d4ea7d4afc7b29a05bafbede62b55a91eb912044ea5f,
   0x0,
   0x303f54f2065df7c5e3a3c44cf5c70f9fa6523027c962495202714333df639f15,
   0x366c6330c34e45179c3634433f789736b81cde7fd8fe0c64d996120758f06de1],
  [0xb13715d51a75c130ce4cca6ae1526d31e62a88aadf44dd9df91c5ab4c9b2a39,
   0xdb5218be6881f0f1431d4ea7d4afc7b29a05bafbede62b55a91eb912044ea5f,
   0x0,
   0x31675c1c4b66b8aeb50c98338347b9da7c858b2d810748bd989f4d2addceb2b9,
   0x11bf6d07dc5eafb4493aecec0e6a051b9048fe82e2a71f066d8a469d8c38d1d0],
  [0x2fa9e3856969c1e9f6f90907123327e50782672d9b7f617e38211b3146874f91,
   0xdb5218be6881f0f1431d4ea7d4afc7b29a05bafbede62b55a91eb912044ea5f,
   0x0,
   0x1c225ee509624599156d987664c726009e926315e608a456adb64f03ec0bb27a,
   0x275206b1d82b2eab59e71153900113c3ce21ad17774376b4e8c200a3e05aba10],
  [0x2f11a152b764332c778adaff6ea83fb327f1ff230df1c1d1e39bb33d5fbfbabd,
   0xdb5218be6881f0f1431d4ea7d4afc7b29a05bafbede62b55a91eb912044ea5f,
   0x0,
   0x3a03b9a852c31a15c98c22d8636ae698c446940f4203f2ec9b5a2ae22566342e,
   0x2ee7056bcc3fcccb1ff1f4765a2e54477b04c19c477f31fbdbc49fee269df4a],
  [0x980e61d7b3b80930f79f85357f72d82e912ebf5b09c0a389441e357158d2e3a,
   0xdb5218be6881f0f1431d4ea7d4afc7b29a05bafbede62b55a91eb912044ea5f,
   0x0,
   0x2c7d7e71bc01e1941205cc391e7110eec6ffe0117f39eac53cd2e45f430a6957,
   0x2c83bf4dbfdf6f0bcdaad0686af29e38d885d3f02acb70562e02b8a386b6f756],
  [0x187b575a6dd903a372c9133d05563d689e9e349bd65e6301ea2135ae9bbc9472,
   0xdb5218be6881f0f1431d4ea7d4afc7b29a05bafbede62b55a91eb912044ea5f,
   0x0,
   0xb07d32dd15b9d5583801cd02319f0309a978697bbc85d531167ab0c177b1bca,
   0x3653f63f5b8bfd7045463f840585ea4e0f895812d7266892cd28b16c9742c3e],
  [0x2c21970026d7c398c47f4932a3b991050a5720c36d7b7b6e2edb47d3bbf807a3,
   0xdb5218be6881f0f1431d4ea7d4afc7b29a05bafbede62b55a91eb912044ea5f,
   0x0,
   0x107850b15c5c3aadbc9a80f626e2940b1b63bedefdba35d0b25857d441b51f84,
   0x3756277e1e3731719c79e9a3c07b32fe8342bd91b2fb0b7ccdd46a6f300e067d],
  [0x3aeb362e5841a7f04bbb1f50d0909cf86aef833fed2b38cc89635addf476545,
   0xdb5218be6881f0f1431d4ea7d4afc7b29a05bafbede62b55a91eb912044ea5f,
   0x0,
   0x3828fd7d21a81d983889d28b10c9c5ed5d365d561e1248b7b86af0f419a8bca8,
   0x88399abf6b7c8d382ce4d7716833a479ab7adb219a102429b6a568bf30dccd1],
  [0x31e20674614d7c9d522e26806ed6e1e7585d6e9e0cc0407dd386880a2d3c51e0,
   0xdb5218be6881f0f1431d4ea7d4afc7b29a05bafbede62b55a91eb912044ea5f,
   0x0,
   0x11bb846e12226ac488b3254c60660e6928b9b930a86a4f59bb8221cef1f998b7,
   0x68620583167db97be8c6f85a5ec47b6e9a51aab8eca6ac0aa6acffcd48540c7],
  [0x1e5d48ef977cd5bc48d6fc3457246350ad27b298d7851ed6bb3ba1f3fc56da80,
   0xdb5218be6881f0f1431d4ea7d4afc7b29a05bafbede62b55a91eb912044ea5f,
   0x0,
   0x98989b4525693098017660fd2482cea0e7d0e6a4610520748babd34611d8471,
   0x20d436459705a9d9541e78fbb5546172e06ef9230da9989335332de449011f2],
  [0x4d8fe05007ae0b50b9c6785174ff39bc5ee7d1c0016bd81ca9667e73a62ea2,
   0xdb5218be6881f0f1431d4ea7d4afc7b29a05bafbede62b55a91eb912044ea5f,
   0x0,
   0xba1b38b60d8e7ae10228853c8424391f173aac9d9fb0d8140b4eb2e25fdd173,
   0x4deba36c39edc2f0b183036ae4c202697e02e8b7d6c85be6d78a0240c66f616],
  [0x132737c5ccf27baf351882bb3e0c431445a974d5555eb0de6c820688b02dea27,
   0xdb5218be6881f0f1431d4ea7d4afc7b29a05bafbede62b55a91eb912044ea5f,
   0x0,
   0x11de78a0bb13bd0173ab2276d7f4cce37801237d0ea759d4482386dec21240e1,
   0x14c8d346667095be4cab2ff102c4d2ada01bc565b5d08e528ccbddc64854e4ec],
  [0x36e3329d216abf43c3526fbf5f875b03648b24ba4bde9d4e796828ca515b7eab,
   0xdb5218be6881f0f1431d4ea7d4afc7b29a05bafbede62b55a91eb912044ea5f,
   0x0,
   0x176fed753d2301fdf5e7dae74984e1100b56793d2811382dfd9da5f6945da06b,
   0x3ffbef9fe9e8f093a11988a26b8d480c784d15e6ba4829fd24a8409bfc04fb90],
  [0x299bdeac44a2c8d420a43a78b33db50e205481b2df9885ce9d349d946cc9e942,
   0xdb5218be6881f0f1431d4ea7d4afc7b29a05bafbede62b55a91eb912044ea5f,
   0x0,
   0x37320e62dc62072995e70a5054df2e91f738fb7eecfa771b88caf8fdbc5414c8,
   0x6500904cef2f0c2f0579e8be68ba854f001cbba06c30f5b6d4cd23d44e9e4eb],
  [0x1e2402fbd82dc90e68822763aa711d26f2cf09b7348df752bdccaffeda958463,
   0xdb5218be6881f0f1431d4ea7d4afc7b29a05bafbede62b55a91eb912044ea5f,
   0x0,
   0x8cfb47260b693b64e8ed6d0cd2562e8111c1f4793c6c224fa232b4edb348420,
   0x10c6be7e6b3f912b7d47455f041a26c60497999fae7195d28a4e9761bb33d876],
  [0x2e1734cdda4a577589ba22215ecb3c58a82b976bf072b8910a76076192e2e633,
   0xdb5218be6881f0f1431d4ea7d4afc7b29a05bafbede62b55a91eb912044ea5f,
   0x0,
   0x81e283e53c71decd4866732e14b36492f45a922e9542a78fdd98ecbb5ba591e,
   0x3236ec24a49b952ec9513ac013151d549ced33782e146ff205c08744db2bc905],
  [0x39d0de63feffa368f03357b94f0cd51a6bf0ce6ab5a0e2bd50067ad3f06e3144,
   0xdb5218be6881f0f1431d4ea7d4afc7b29a05bafbede62b55a91eb912044ea5f,
   0x0,
   0x2529b0fe6ef3ffb1bada8e7d08677cb21b7893badcb602ac8f389c00b52e18d9,
   0x1db3d5430ad9b173150ff3d9b76e35e6e309144771db1d90c6f289a04c2353e9],
  [0x295c3aa38a8f45341911014119ad09e95138077f3b211abbdd52f682baa2db4f,
   0xdb5218be6881f0f1431d4ea7d4afc7b29a05bafbede62b55a91eb912044ea5f,
   0x0,
   0x251f12b90fb6e52cd5ab3c3aab6df42a8e73d13bef0da7e6fbd6f40d41d9a081,
   0x9ebeed92092ec59dd6acf1e4b3869e817784dd42c45bee05a37980f2f65c274],
  [0x2e58cd5d97627b8fbee2134c92781d7b11555f6928915a1f9b735598072f4d07,
   0xdb5218be6881f0f1431d4ea7d4afc7b29a05bafbede62b55a91eb912044ea5f,
   0x0,
   0x655fb4501cb08572292288fc867bd45a8801abead3c983f9c698438715b3862,
   0x1fb54bfd3d88e6e0be1e983225e4e38f05ed1089e1ce2e9d5c40eebd27229a0d],
  [0x28710435762f15aedde41867ad7362c0bc4bab5e16cce267e1e84ddf16bf8ebf,
   0xdb5218be6881f0f1431d4ea7d4afc7b29a05bafbede62b55a91eb912044ea5f,
   0x0,
   0x14633605a5abb651a70ef7f743104c68c88dab4e73a73a3c7af30df7611f20fe,
   0xfd2be09bbc468623faf93d4ffd03c7a3910b3845d7a6bab13e174c6aed5acdf],
  [0x356cadbc4225afb54b454e8813d30f995c56a5cc45192bfa85fa886adf8b92e8,
   0x0,
   0x0,
   0x14a8239b5ff321d15619cd19b3658f6bb65b68a7f577f2c687e8854e524aaf2c,
   0x0]]

def other : Content Fp
  | 0, .advice 6, 0 => ((0x891a63f02533e46e64b4c3b40000001803 : Nat) : Fp)
  | 1, .advice 5, r => (([0x10, 0x200, inv32].getD r.toNat 0 : Nat) : Fp)
  | 2, .advice 5, r => (([0x7, 0xe0, inv32].getD r.toNat 0 : Nat) : Fp)
  | 3, .advice 6, 0 => ((0x3c000 : Nat) : Fp)
  | 4, .advice 6, 0 => ((0x0 : Nat) : Fp)
  | 5, .advice c, r => (((otherRows.getD r.toNat []).getD c 0 : Nat) : Fp)
  | 5, .fixed 0, r => if r = 24 ∨ r = 26 then 0 else if r = 51 then 2 else 1
  | 5, .fixed 1, 0 => 2
  | 6, .advice c, r => (((([[0x891a63f02533e46e64b4c3b40000001803, 0x3c000, 0x0, 0x5, 0x7], [0x224698fc094cf91b992d30ed00000006, 0xf0, 0x10, 0x7, 0x3]].getD r.toNat []).getD c 0 : Nat)) : Fp)
  | 7, .advice 0, r => (([0x5, 0x7].getD r.toNat 0 : Nat) : Fp)
  | _, _, _ => 0

def leftCell : Cell := ⟨7, 0, .advice 0⟩

def rightCell : Cell := ⟨7, 1, .advice 0⟩

/-- The constraints hold, and the result is as given. -/
def checkLayer (w : Content Fp) (out : Nat) : Bool :=
  match demoMerkle.sins.hashToPoint generatorTable 5 (some (-1, 2)) [unknownPiece demoMerkle 0 25, unknownPiece demoMerkle 3 2,
    unknownPiece demoMerkle 4 25] with
  | .ok (ch, pt, (_ :: z1a :: _) :: (_ :: z1b :: _) :: _) =>
    let short := shortCalls demoMerkle.lookup ((inv32 : Nat) : Fp)
    let regions := [[.advice 6 0 none], short, short, [.advice 6 0 none], [.advice 6 0 none], ch,
      demoMerkle.decompose 6 3 (unknownPiece demoMerkle 0 25).value (unknownPiece demoMerkle 3 2).value (unknownPiece demoMerkle 4 25).value
        ⟨leftCell, none⟩ ⟨rightCell, none⟩ z1a z1b (unknownBits demoMerkle 1) (unknownBits demoMerkle 2)]
    regionsOk demoMerkle.chip w 0 regions && lookupsOk demoMerkle.chip demoMerkle.lookup.qLookup w 0 regions &&
      regions.zipIdx.all (fun (calls, i) => calls.all (lookupOk demo generatorTable w i)) && w.at pt.x.cell == (out : Fp)
  | _ => false

theorem looksUp_all {w : Content Fp} {regions : List (Calls Fp)}
    (h : regions.zipIdx.all (fun (calls, i) => calls.all (lookupOk demo generatorTable w i)) = true) :
    ∀ i (h : i < regions.length), LooksUp (demoMerkle.sins.lookup generatorTable) (Sinsemilla.load generatorTable) w (0 + i) regions[i] := by
  intro i hi
  refine lookupOk_looksUp gen_table ?_
  have hm : (regions[i], i) ∈ regions.zipIdx := by
    rw [List.mem_zipIdx_iff_getElem?]
    exact List.getElem?_eq_getElem hi
  have h1 := List.all_eq_true.1 h _ hm
  rw [Nat.zero_add]
  exact h1

theorem checkLayer_sat {w : Content Fp} {out : Nat} (h : checkLayer w out = true) : ∃ regions r,
    demoMerkle.hashLayer generatorTable 0 (affine pallasGen) 3 ⟨leftCell, none⟩ ⟨rightCell, none⟩ = .ok (regions, r) ∧
    SatAll demoMerkle.chip (fun _ => RangeCheck.load 10) w 0 regions ∧
    (∀ i (h : i < regions.length), LooksUp (demoMerkle.sins.lookup generatorTable) (Sinsemilla.load generatorTable) w (0 + i) regions[i]) ∧
    w.at r.cell = (out : Fp) := by
  unfold checkLayer at h
  split at h
  case h_2 => cases h
  rename_i ch pt z0a z1a zsa z0b z1b zsb more hh
  simp only [Bool.and_eq_true, beq_iff_eq] at h
  obtain ⟨⟨⟨h1, h2⟩, h3⟩, h4⟩ := h
  rw [← inv32_eq] at h1 h2 h3
  refine ⟨_, _, layer_unknown (start := 0) rfl rfl hh, regions_sat_lookup h1 h2 rfl, looksUp_all h3, h4⟩

/-- The hash of 5 and 7. -/
def canonicalOut : Nat := 0x1d8c63c9b598222b3de7d7a210ae9a2de84cae84f7ab4e411d54a128da3f38d4

/-- The hash of 5 plus the modulus and 7. -/
def otherOut : Nat := 0x356cadbc4225afb54b454e8813d30f995c56a5cc45192bfa85fa886adf8b92e8

/-- The hash of words, with the slopes given for each. -/
def chain : Fp × Fp → List (Nat × Nat × Nat) → Option (Fp × Fp)
  | A, [] => some A
  | (xa, ya), (m, l1, l2) :: rest =>
    match generatorTable[m]? with
    | some (xs, ys) =>
      let xr := (l1 : Fp) ^ 2 - xa - xs
      let xn := (l2 : Fp) ^ 2 - xa - xr
      if m < 1024 ∧ xa ≠ xs ∧ (l1 : Fp) * (xa - xs) = ya - ys ∧ xa ≠ xr ∧ 2 * ya = (l1 + l2) * (xa - xr) then
        chain (xn, l2 * (xa - xn) - ya) rest
      else none
    | none => none

theorem chain_hash {steps : List (Nat × Nat × Nat)} : ∀ {A : Pt (5 : Fp)} {a b : Fp × Fp}, A ≠ 0 → coords A = a → chain a steps = some b →
    ∃ P, hashOf gen A (steps.map (·.1)) = some P ∧ P ≠ 0 ∧ coords P = b := by
  induction steps with
  | nil =>
    intro A a b hA ca h
    exact ⟨A, rfl, hA, ca.trans (Option.some.inj h)⟩
  | cons t rest ih =>
    intro A a b hA ca h
    obtain ⟨m, l1, l2⟩ := t
    obtain ⟨xa, ya⟩ := a
    unfold chain at h
    split at h
    case h_2 => cases h
    rename_i xs ys hm
    simp only at h
    split at h
    case isFalse => cases h
    rename_i hc
    obtain ⟨c0, c1, c2, c3, c4⟩ := hc
    obtain ⟨g0, g1⟩ := gen_table.points m c0
    rw [hm] at g1
    obtain ⟨B, b1, b2, b3⟩ := step_of hA g0 ca (Option.some.inj g1).symm c1 c2 rfl c3 c4
    obtain ⟨P, p1, p2, p3⟩ := ih b2 b3 h
    refine ⟨P, ?_, p2, p3⟩
    rw [List.map_cons, hashOf, b1]
    exact p1

/-- The 52 words. -/
def wordsOf (l L R : Nat) : List Nat := (List.range 52).map fun i => (l + 2 ^ 10 * L + 2 ^ 265 * R) / 1024 ^ i % 1024

/-- The words with the slopes in the rows. -/
def stepsOf (l L R : Nat) (rows : List (List Nat)) : List (Nat × Nat × Nat) :=
  (wordsOf l L R).zipIdx.map fun (m, i) => (m, (rows.getD i []).getD 3 0, (rows.getD i []).getD 4 0)

theorem canonical_chain : ((chain (-1, 2) (stepsOf 3 5 7 canonicalRows)).map (·.1)) = some (canonicalOut : Fp) := by decide +kernel

theorem other_chain : ((chain (-1, 2) (stepsOf 3 (5 + pallasBase) 7 otherRows)).map (·.1)) = some (otherOut : Fp) := by decide +kernel

theorem stepsOf_words {l L R : Nat} {rows : List (List Nat)} : (stepsOf l L R rows).map (·.1) = wordsOf l L R := by
  simp [stepsOf, Function.comp_def]

theorem hash_of_chain {l L R out : Nat} {rows : List (List Nat)}
    (h : ((chain (-1, 2) (stepsOf l L R rows)).map (·.1)) = some (out : Fp)) :
    ∃ P, hashOf gen pallasGen (wordsOf l L R) = some P ∧ (coords P).1 = (out : Fp) := by
  obtain ⟨b, hb, hb'⟩ := Option.map_eq_some_iff.1 h
  obtain ⟨P, h1, -, h3⟩ := chain_hash pallasGen_ne (show coords pallasGen = (-1, 2) from rfl) hb
  rw [stepsOf_words] at h1
  exact ⟨P, h1, by rw [h3, hb']⟩

theorem canonical_check : checkLayer canonical canonicalOut = true := by decide +kernel

theorem other_check : checkLayer other otherOut = true := by decide +kernel

/-- The rows of the hash of 5 and 7 in layer 0. -/
def steppedRows : List (List Nat) := [
  [0x40000000000000000000000000000000224698fc094cf91b992d30ed00000000,
   0xdb5218be6881f0f1431d4ea7d4afc7b29a05bafbede62b55a91eb912044ea5f,
   0x1400,
   0x11d422293b37da23046e85b6a5e1e20b26b6eb259c293cf9c4ca7e2652e68928,
   0x1d0ddec1a57b85bce6133d329c4f2314a2e6b05d1947752f82c001cd089d769f],
  [0x3d8025ff960ccbef5811fa4d41c67ec374a4a8348822deaa6870f29f9116c11e,
   0x1d7451a57e925ec563c5542ebe6c3ab794fb57dc9d31389b1e629662aa5a3fdf,
   0x5,
   0x440cdac470bf3fabab7929c7d1db025477f6c5e185cd6121dbef512520e67d0,
   0x3883dc4b50ec81272a9459fbb0984bd0157c5f0644769f20192f3ddb89988ccf],
  [0x32d5070439a1ac25baefa242e33e404f8ad087b2dca04f98c14495d47f7022ee,
   0xdb5218be6881f0f1431d4ea7d4afc7b29a05bafbede62b55a91eb912044ea5f,
   0x0,
   0x18f7efafdcd7ee632b84180c80fc060c151c956f20ab2bf931fa6869b23b5fd0,
   0x39f6389435ed3ce828dc10aa973606ccd5c8b3de0ef78b78b5dbae26e9f5e4ef],
  [0x12d677c1c9132e2f2789850f82ff62f8f90282326396591f451d81d03e290256,
   0xdb5218be6881f0f1431d4ea7d4afc7b29a05bafbede62b55a91eb912044ea5f,
   0x0,
   0x9f2bd1256feb72d40ad8f470f70885ce1c7a43955ceb71296752679ecfb01a7,
   0xedf9f2a27f0a284f01ea4b7347efb56b3ac06194c4d9e66d8c211bac73e452f],
  [0x3af9f003f8a45b0c45c346c2082130c71fff693f5bff94997163afe76c7f46c0,
   0xdb5218be6881f0f1431d4ea7d4afc7b29a05bafbede62b55a91eb912044ea5f,
   0x0,
   0x27532621786b3d8a3bbd25f9507ae0d83b96ea4e332e25b78d3a6457ac0801da,
   0x30c6e4a5df5f39f2855d3522fb54cbd388dbfad88d5a9c27081545f2ace6375f],
  [0x1a544555cc8e4f08ceab1b00a9093df42e263df3ad2a27fa2bfed3495aa11b62,
   0xdb5218be6881f0f1431d4ea7d4afc7b29a05bafbede62b55a91eb912044ea5f,
   0x0,
   0x13479fae43c99de47a6b0abeb901980bf51dd24891c18effb2ae9c0677e25ccb,
   0xb298acd0751163a94860521c66f6d464572af48a54efe0ba21b5fe8ae637a40],
  [0x132698c821d495a38ba24fed3ea85424592880f3b18397abaa3268c9ca72ca9e,
   0xdb5218be6881f0f1431d4ea7d4afc7b29a05bafbede62b55a91eb912044ea5f,
   0x0,
   0x23d9340e29babf9df629b9bc586dfebdf8c2e26ed43c452fa1ae55ed21ec7b75,
   0x335b1fa535d27c09001f74141eca29fdbea704d693b2e0e16c5287e12f477835],
  [0x83c0a2983bfeaedf95ecb0bfc4ef80aaa5eccb54b9c1249be8a4da20530e9fc,
   0xdb5218be6881f0f1431d4ea7d4afc7b29a05bafbede62b55a91eb912044ea5f,
   0x0,
   0x113344735f9ab7a08209718a5255dc3f9e9054c6a020934f2a80a91c9b6b9ec8,
   0x2f48ee4317ee0cc1728c4777f61127af493bce544db0deddac3f5bd326a7b607],
  [0x4cbc0447c460c0e018c0db915f432752993458de8a8d7480de69b85e424e9ed,
   0xdb5218be6881f0f1431d4ea7d4afc7b29a05bafbede62b55a91eb912044ea5f,
   0x0,
   0x8b11647d5d488670a998e1bc7a9fe05b14c621f22f4a0cf08dc54b78619420f,
   0x3c904505be29dd43d13247afe47aaa697e8493b0c54331083e720908b9246fc5],
  [0xe37e4eb5e22d85a78dfe56859cd01565a32ba3d478442478c38303ebb3ab1f9,
   0xdb5218be6881f0f1431d4ea7d4afc7b29a05bafbede62b55a91eb912044ea5f,
   0x0,
   0x339271c22cb4202cd9297e6d1f903cd138f200e417a08cca8752ebb0da845369,
   0x3ac89f81a68e5aa676bad091f7eddef167f91763b9074c05ed90594e843edbc0],
  [0x297fed42d9106f8b8815600f7b4e7d2c72cb03c69d649609f9ca9a3d5c1d8cd1,
   0xdb5218be6881f0f1431d4ea7d4afc7b29a05bafbede62b55a91eb912044ea5f,
   0x0,
   0x298a9fda81de8aa63b10dd5c3e44ecfef6e7f044bd6b1b7d710c7483bfdad3e7,
   0x870326fecb9470e70b8d11d4d7fcbf94d9b7bb28bc727690eca5efa79d3a9f1],
  [0x18408f1f63ee10c52cf8743d99b352255d37cf90016f7ab81708ea441b105e7a,
   0xdb5218be6881f0f1431d4ea7d4afc7b29a05bafbede62b55a91eb912044ea5f,
   0x0,
   0x56a47e0170ab53d9258016df30778182da863b6afbf4366ac6833e1f8eced87,
   0xf27a6a93238c717cb73515a8d4bdf34ae4537c549d3cc24c75eb56981bd9960],
  [0x37560be0948baf30b9e43c9370d42143fac7854935379d16dbb7d953c872515a,
   0xdb5218be6881f0f1431d4ea7d4afc7b29a05bafbede62b55a91eb912044ea5f,
   0x0,
   0x3a48f09862a4b40d37f8b662a718001466c91f10756d03fe3a384fb56d17653a,
   0x2506958e8a1e15557f6af09ab45f4453f1930cf4d5316f3c2fbaad40f3f2db35],
  [0x2c007cb926034733bf10928f8190bfa0ef31f017ebc072fdbac2687918785dee,
   0xdb5218be6881f0f1431d4ea7d4afc7b29a05bafbede62b55a91eb912044ea5f,
   0x0,
   0x31a9442e027179c12314a046f3ca88f5766c8eefbb4422b25a2ecf0de63a07e5,
   0x3a003d8653599a89176c9027c6100686aa3aa58829e4d2b4c30204e66ad29747],
  [0x1377989507d51478dd5ec0f2cca5c78d1ed0fa81c2fab908a29cf9b28b8590e0,
   0xdb5218be6881f0f1431d4ea7d4afc7b29a05bafbede62b55a91eb912044ea5f,
   0x0,
   0x27e52939389f27fde55631ae08a73bc9fdaaf28ce2fc1079a4615e5711a39bb3,
   0x3a4ad2c2e48c1f7cdd8425a976dc1dfcb0df086c5a1510df0b4fb559ae19f255],
  [0xb830d0dc5526cf66168f48d7ce15d101a6bd61ed3c0280e6159a36b8bd083,
   0xdb5218be6881f0f1431d4ea7d4afc7b29a05bafbede62b55a91eb912044ea5f,
   0x0,
   0x2bff436dfd564532cb65aa972c47b9b5b06885d3a135a0394a82c83d3979715d,
   0x2e90ad0de87d0476f583d1604f15edf8a5f3dcb0ce4e3068076604c8df2c59f8],
  [0x34e47c0ed815496cfddb65a6bf8e1493e7a87034cb4ec92af7804d091bf9890f,
   0xdb5218be6881f0f1431d4ea7d4afc7b29a05bafbede62b55a91eb912044ea5f,
   0x0,
   0x2909fe4b7b5154cc8b4d186bef1c8e4ab4e6bb3dd10a1dff986db1d34b137b78,
   0x34df8f5d8f5161d79aee4fece59198117b22235ef59ee7d43cb5da318696fa5e],
  [0x9821e6b44edb39e5b5bfd63eb0f91981caf28eee48f921ac78a9f09ae84c446,
   0xdb5218be6881f0f1431d4ea7d4afc7b29a05bafbede62b55a91eb912044ea5f,
   0x0,
   0x3b3092e4f6e921a4c4000a551e5878afd37c8ef3b1021db64604acf82f4c5ee,
   0x3cc7b3c96ee849429808cf1174381c0fcec84339cf4ead5affb2ff1788f88fcd],
  [0x3a2a241561cbd95dfd2b811d24b779f756de9576527f9363f14279c2580f6286,
   0xdb5218be6881f0f1431d4ea7d4afc7b29a05bafbede62b55a91eb912044ea5f,
   0x0,
   0x2e08cc4338259c1433d911ac1ff2f044f2ee738d36652bf88048ad51e0307e8e,
   0x61fa962b57bba012e432ca66f7e9dd41f62ea887508c894f086e3d5788165a1],
  [0x3ac681757fbd6918052879145ef9cdbf71d1309079591f35789c7951a25bca1,
   0xdb5218be6881f0f1431d4ea7d4afc7b29a05bafbede62b55a91eb912044ea5f,
   0x0,
   0xde837b9e32d32adbb5ebe16623be33bc281fd019547eb2775d92013041e61fa,
   0x37723c88ba9e2bf918930f11abf99741b9961617b5bdd153dcc2675b19f9571b],
  [0x303c8510c9bf176067e60db5fb060aa3522630533cd2c8afd64cc3aaf23bfea,
   0xdb5218be6881f0f1431d4ea7d4afc7b29a05bafbede62b55a91eb912044ea5f,
   0x0,
   0x3f210517e9b8a169db76418ac9193fd7a7f360e71aa01c8ce6db5c63022e3b14,
   0x184974a3abc221f97d18e0e5969f0e9fe508beea78ecce75454c566881bb3ca],
  [0x728afdefcd7b7312ce5b88e94e0fd7e0faa64a66f92e97219ccacbd87dfabcd,
   0xdb5218be6881f0f1431d4ea7d4afc7b29a05bafbede62b55a91eb912044ea5f,
   0x0,
   0x1162e761385ee66f211aceca25c0ce55b633b1aa4f6477d11f8bcea1cd672004,
   0x23684474b8bce84d812ce29ebf874c6beb3886076b49a6034e2a022e7ca8e1ec],
  [0x213720de5b787aed2ab098b894fc66bef3f99bcc9e9b7b4ec052c0e8e98e5383,
   0xdb5218be6881f0f1431d4ea7d4afc7b29a05bafbede62b55a91eb912044ea5f,
   0x0,
   0x3122b9046634d6be85887f9130cd7eba9b4db626b3911d0ead3783d499658911,
   0x3184d549aeed07b727f3cb2834465ea906de633889475682af7454b48c13ccf6],
  [0x1133cbf162b4563b046127a9c7a59db228a26e47c50c29067baee61ca28f0b57,
   0xdb5218be6881f0f1431d4ea7d4afc7b29a05bafbede62b55a91eb912044ea5f,
   0x0,
   0x193693eb54a0806404f1ce8ad084551137d21813a56b7dd30c35ef68a8467fb5,
   0x2d7e5b9cba73dba02529c6accc1a008413e7f0fde5ad828946023bb116562e57],
  [0x2d4b440ae9a5a743451ca5fb2d19e789ef2fc063ad212817e7efc287849b55ae,
   0xdb5218be6881f0f1431d4ea7d4afc7b29a05bafbede62b55a91eb912044ea5f,
   0x0,
   0x257f62bae8f0c35cc1c3c4efd7c041593b098baa08e5b8c74368f038b9840f21,
   0x3238186679d1833b97c4e1a07706923659485ecb70cad6f6b01e0028cc9d6139],
  [0x7825b51e6818a5ac690c47db2ccdda2a0abcd20e8a95171d7d10fec6662802b,
   0xdb5218be6881f0f1431d4ea7d4afc7b29a05bafbede62b55a91eb912044ea5f,
   0x38000,
   0x17cb6a5dff4a8224b9ef38716c6f980d5d50d1b51c23ee060d8185112d4dbeab,
   0x197daee65f34205417d9b63e9b13be30f9a002ef2a21cbaf52b7707da5d6d371],
  [0x11bc0a2348489f06535aa3bd412729bf0c8457998198792896fd6c063f992851,
   0x1461a8e640c8f85ae85ec0c886265736901500b523c1e447a45383a9b4e6a758,
   0xe0,
   0x23d294198a78d68f6b8e6c08374b8d3c82bd3258f822d25b0ced6b824c858ebe,
   0x3d544f18e20b0e08979f02c0ed9c49d801dcc82f08f1d741a8fad7c6ed0ada32],
  [0x34d88d02245b46cd8e12bc681dc5f535bb5504c22905ccca5d11b9544656f839,
   0xdb5218be6881f0f1431d4ea7d4afc7b29a05bafbede62b55a91eb912044ea5f,
   0x0,
   0x581828bbbfd8eb622cebd99a51426805240ba97206687a30a7bb2d45896b8a1,
   0x292ded7ac7fbe2979d0268676c6fa620ad7085b2b7b4fd9f8cb228f59d62fb44],
  [0x2c8de06c993f4659fba1df8ec56f89d2b964ce353b7cfdbe147653a150c83a6d,
   0xdb5218be6881f0f1431d4ea7d4afc7b29a05bafbede62b55a91eb912044ea5f,
   0x0,
   0x85dc777e960b3fe7430a661118f0b1e2ed3305d8a3b7c01983ea35d42acb0c6,
   0x22384fdba127973cbd46186caa2918b301da1a2e67cbe9f10572072004c715a6],
  [0xe37621e9fc33a2eac5525bf43e1bf9344bf0bc0334faadb6d167861f5946fc6,
   0xdb5218be6881f0f1431d4ea7d4afc7b29a05bafbede62b55a91eb912044ea5f,
   0x0,
   0x2d0aefb1fbfab0ae16b270bbb3bd97823370cde5c076576b642dd044311dc654,
   0x3850299e310f888b45e31a9815afea24a8e45d6910e24e1b226ce7aa2198cc6e],
  [0x1a90889f0689c873dfdf90326d0f1aa4910124aa9252a26b08259dfe0d38ca10,
   0xdb5218be6881f0f1431d4ea7d4afc7b29a05bafbede62b55a91eb912044ea5f,
   0x0,
   0x3aa16c84cc715f8ef12803fd6ec77697d186dd4c2c04404dc25be71eeb3428ad,
   0x1d234d3659cd298227222503cc3905b256efa267a058927e2fef7d2627384fc1],
  [0x14c2974e3077e53a8173c217e1e9293a3704ab8ac5f2d79e93dc2da6dfb47138,
   0xdb5218be6881f0f1431d4ea7d4afc7b29a05bafbede62b55a91eb912044ea5f,
   0x0,
   0x32604035b3ed0518204b41cfc0007b7eddeb60be568a0229f07d6ca73e9b0316,
   0x352e4c3cfcf24ab43050141f24bd9f74ea41d5867038fdba924326521f332f3e],
  [0x3da7342d18985d19e6d98fcead1a7859fccfc1c08167eeffb7a4cee13ed47c0d,
   0xdb5218be6881f0f1431d4ea7d4afc7b29a05bafbede62b55a91eb912044ea5f,
   0x0,
   0x265322f899bc8795894a3ed3dc53a6d1e5091088e3b49923a79a51a3ebb4c92b,
   0x362eb1c8c2855d7171c80bfb6acedcd9a731e17d9ade9b8b300cf0ea3645b842],
  [0x39a98a8d0e8a07f50b70914fc8be7036bc60ffe17f1affb8535a6ba5f8766216,
   0xdb5218be6881f0f1431d4ea7d4afc7b29a05bafbede62b55a91eb912044ea5f,
   0x0,
   0x1607ffbd21f435242960fc974fa5d62d2ddf27774d8f584dd3bc9c1793630a55,
   0x1635f1480e2b4e54e3f996326e4303e4da0d2ec1ca01eef9f2e2817960bfb53],
  [0x717ebc0f7e545d10a8b1c518b0f1adb0d73230a034429ae4ea3885f99f88e9f,
   0xdb5218be6881f0f1431d4ea7d4afc7b29a05bafbede62b55a91eb912044ea5f,
   0x0,
   0x18f6e28cee04cf49f8c795a11f607dd4adbdcc9d6d03bb95f79519ba8a877e16,
   0x28399e556974564e8cd3de1f40b2912f6ec64f1d3bb1372d58cf5ca65e5e2618],
  [0x3567ab859be889d8d5f233247952c21bc8753721c9576f9252e39bb875124532,
   0xdb5218be6881f0f1431d4ea7d4afc7b29a05bafbede62b55a91eb912044ea5f,
   0x0,
   0x2bcc891c9e3352ec760da4e6627dd763e0b49049a81ce214e174cf2836f926ca,
   0x135a7a1dbbb1410a670439f096ce95999191d624e0184b3b150280a33ed0f444],
  [0x13aa4fa966ec03d9367489b0e85868d94e0a24018b46703e3f7dccc42a705fb9,
   0xdb5218be6881f0f1431d4ea7d4afc7b29a05bafbede62b55a91eb912044ea5f,
   0x0,
   0x18c22ecc7050460949f7ba1760a57cf0f12e1ca17617c2f86bff2a472eae8b0f,
   0x1c9d8ed36a493e6dae32b9a0aa82d5e702bbf28fcd4e9d4be7587c458d406c97],
  [0x33bc12d1bcef5f0b21b03634b966cf1f9ebdd834f3f81ddc916e9351dbb2c1f1,
   0xdb5218be6881f0f1431d4ea7d4afc7b29a05bafbede62b55a91eb912044ea5f,
   0x0,
   0x145af9c003a541427500c1d39725c447c1b5cbfdbd5d16f8345f58548a507b8,
   0x2ac459f75d64e4e3b459d1467a57ba16c48ab373311903f1cc8b5547fda2b6bf],
  [0x1d841d02223a222bd976b7224e81dd2cb27d3a5ef3da68ba17eaab0dca40bca3,
   0xdb5218be6881f0f1431d4ea7d4afc7b29a05bafbede62b55a91eb912044ea5f,
   0x0,
   0x9795011bd7fe6176631438bf3a64656102a77949a9d273f90a3482b2ada47f3,
   0x1985e05fe1da510a51a2e0af6fe0fe99527a56195a05b29a5b614300698bbecd],
  [0x4613559bebdad2c3d1f35c94eaa48f4e75745039aeed3758b3827465d3337f3,
   0xdb5218be6881f0f1431d4ea7d4afc7b29a05bafbede62b55a91eb912044ea5f,
   0x0,
   0x2a43502d0267ceca0c827cf6362c50ad407a6fd095c22faff991e784c0974990,
   0x2b2e4f980289c9324cc7a86a8d2c872431e947ab3473c3bd866908e7722f9994],
  [0x22cc0b661691c17ce04c276a3b544b318ac8519bb131a0eee300e5fd1f4d252,
   0xdb5218be6881f0f1431d4ea7d4afc7b29a05bafbede62b55a91eb912044ea5f,
   0x0,
   0x2c2970ff5e406093b0a33fce9b8eb0ad952bf3ba92ddd0a6c0c31be3fdb04192,
   0x3beac42ed244f80ee85f43b065c88cc9567855d00603dcd52fa4e5aa61f8febf],
  [0x239844ed381fdf05085bb68c4189a629b29531e4b4eb711dd583d7dd0c9de300,
   0xdb5218be6881f0f1431d4ea7d4afc7b29a05bafbede62b55a91eb912044ea5f,
   0x0,
   0x27fbc6f9ea6b738eab3b0ed7d15b28d3a0c73bb0774641804e5b9ca2150381c2,
   0x2924cf1dd89ae9a1208e97a0497fffc54d037d7fa884c0fb4c179feac053fced],
  [0x17e6d74baaccfed5a5608311382f089d70caeee9274d1dfae8fbaef4b47e0984,
   0xdb5218be6881f0f1431d4ea7d4afc7b29a05bafbede62b55a91eb912044ea5f,
   0x0,
   0x2e84b7ae3551ba8569e5b25d22f4d56ac84b00bf548e5cde127f57ea75f8f8f9,
   0x2471cc3127c16e2fdfbb7993f881009ea96295234579306caa362120b5d08592],
  [0x3c3ed65b2dead953fd65392cd201cd8388471da4ac83e64c9d870dc85f8cc190,
   0xdb5218be6881f0f1431d4ea7d4afc7b29a05bafbede62b55a91eb912044ea5f,
   0x0,
   0xceeb091e6c1d56dff42148acba9eec4be749c753e65d97fa5ae9577ddf02c4b,
   0x16b49bbf0aeea642f532e1914b2ea1ad083e66afdf94ce225b7ca83e7279c8b0],
  [0x2627e6707518486e21dacbd0ae386c86fa9741e9fd2ebd028a60631762d5d721,
   0xdb5218be6881f0f1431d4ea7d4afc7b29a05bafbede62b55a91eb912044ea5f,
   0x0,
   0x1a5113fad26023cb3fda7fa4991b8d539e95615658f805a954ebcd8bc397e9e1,
   0x245f221cf8fec6ef05e8af56850429dd3f9a70e9b67022f4b90511392351504f],
  [0x6baf2d684254adbd9acd0330af003b3658bdb4fda3fb40415f76c84dafdc9c,
   0xdb5218be6881f0f1431d4ea7d4afc7b29a05bafbede62b55a91eb912044ea5f,
   0x0,
   0x1e51a85e2dabcd2948190eba1fec31acc72a0588db82e3fb1b8fc5f693ae5fdb,
   0x3c4516e94a99b3512c825f3f6998ee687002c1d7eb14a6ea69fe5cabdcf64405],
  [0x1babdecdc1b967031e5206b0d1297296655535319c013d389847d9ddeb0cc324,
   0xdb5218be6881f0f1431d4ea7d4afc7b29a05bafbede62b55a91eb912044ea5f,
   0x0,
   0xc89669996b243a4f7b53ef88c005b959ec3acf4e7397eb3979713defddd69b,
   0x16cc5cc2280a35cadedbbea9238d9aa7eee707be80dc65927851e581f38b5723],
  [0x3a5b93b8efcdbd70f5b5089dc8425ddf533ef4d156e2bb539238dc0e303dc030,
   0xdb5218be6881f0f1431d4ea7d4afc7b29a05bafbede62b55a91eb912044ea5f,
   0x0,
   0x1c0c067d320e9682b78095aba0985fc49a2f49fac44b38ff3f86b61273ff41,
   0x31ac8940737728e899445bcf28e7394f77db46b27e5b35a407d31311ff45b61],
  [0x22ae1c977a42cdf1a170b7a77c81c24dec80e491e2276d62c1ca927c06ca633e,
   0xdb5218be6881f0f1431d4ea7d4afc7b29a05bafbede62b55a91eb912044ea5f,
   0x0,
   0x260fb53aad591f9cac986ce5fab2da06df67e5e475adec68fa7a31baca36dc25,
   0x2f45eb1dde19f4c2602444f8b373f92d09cb3aa13d6d7f41818f9a5c5eb94904],
  [0x3257db048eca19c60966b2e2b4d6453a9cee0003ec4e3380e492f857cac8ebca,
   0xdb5218be6881f0f1431d4ea7d4afc7b29a05bafbede62b55a91eb912044ea5f,
   0x0,
   0x16057f30c56908a639d33760b2f3a4d5175a6fb3865ba805a1922c05a1bd5581,
   0x10fbf77ffd7728af85bed1195516e2289c82d36e8aa76e2f79dff5c46d0a86cf],
  [0x1d130a5f5dfb3f0d48105e287d9ebdec8acc53d3614af670b3bd8676a329b4b8,
   0xdb5218be6881f0f1431d4ea7d4afc7b29a05bafbede62b55a91eb912044ea5f,
   0x0,
   0x226f8e9f2eecce95905ceba7c1d6f903dd5209b8fff4b8f113146dba0c6fc1e3,
   0x21335e8da416e83fa3acb5dea38519bc850d64c69bbb83035e1d7f721c778515],
  [0x1b9964f3f8cbcabe1598dce48ba839f6a1e8b665376b7fb50ad0e0cea91ec7da,
   0xdb5218be6881f0f1431d4ea7d4afc7b29a05bafbede62b55a91eb912044ea5f,
   0x0,
   0x387cd87f5b2fba681c58e593984d78e73029a8476da5c6492585af0bb1f400c4,
   0x29727be22950b48aec3d74c614f25e8f3693fbecdf341bdf0d41de586860d6e0],
  [0x322603124308ce65c6898a12846731648020ff8d6465f373661ae9329be9db5,
   0x0,
   0x0,
   0x38777d6cea050bae6b0f2b663154060f4314f45e0a20e579e43be764ea58d4cf,
   0x0]]

def stepped : Content Fp
  | 1, .advice 6, 0 => ((0x1400 : Nat) : Fp)
  | 2, .advice 5, r => (([0x0, 0x0, inv32].getD r.toNat 0 : Nat) : Fp)
  | 3, .advice 5, r => (([0x7, 0xe0, inv32].getD r.toNat 0 : Nat) : Fp)
  | 4, .advice 6, 0 => ((0x38000 : Nat) : Fp)
  | 5, .advice 6, 0 => ((0x0 : Nat) : Fp)
  | 6, .advice c, r => (((steppedRows.getD r.toNat []).getD c 0 : Nat) : Fp)
  | 6, .fixed 0, r => if r = 24 ∨ r = 26 then 0 else if r = 51 then 2 else 1
  | 6, .fixed 1, 0 => 2
  | 7, .advice c, r => (((([[0x1400, 0x38000, 0x0, 0x5, 0x7], [0x5, 0xe0, 0x0, 0x7, 0x0]].getD r.toNat []).getD c 0 : Nat)) : Fp)
  | 0, .advice c, 0 => (([0x5, 0x7, 0x5, 0x7, 0].getD c 0 : Nat) : Fp)
  | 8, .advice 0, r => (([0x5, 0x7].getD r.toNat 0 : Nat) : Fp)
  | _, _, _ => 0

/-- The constraints of a path of one layer hold. -/
def checkStep (w : Content Fp) (out : Nat) : Bool :=
  let (cs, left, right) := demoMerkle.swap.run 0 ((⟨⟨8, 0, .advice 0⟩, none⟩ : Assigned Fp), none) none
  match demoMerkle.sins.hashToPoint generatorTable 6 (some (-1, 2)) [unknownPiece demoMerkle 1 25, unknownPiece demoMerkle 4 2,
    unknownPiece demoMerkle 5 25] with
  | .ok (ch, pt, (_ :: z1a :: _) :: (_ :: z1b :: _) :: _) =>
    let short := shortCalls demoMerkle.lookup ((inv32 : Nat) : Fp)
    let regions := [cs, [.advice 6 0 none], short, short, [.advice 6 0 none], [.advice 6 0 none], ch,
      demoMerkle.decompose 7 0 (unknownPiece demoMerkle 1 25).value (unknownPiece demoMerkle 4 2).value (unknownPiece demoMerkle 5 25).value
        left right z1a z1b (unknownBits demoMerkle 2) (unknownBits demoMerkle 3)]
    regionsOk demoMerkle.chip w 0 regions && lookupsOk demoMerkle.chip demoMerkle.lookup.qLookup w 0 regions &&
      regions.zipIdx.all (fun (calls, i) => calls.all (lookupOk demo generatorTable w i)) && w.at pt.x.cell == (out : Fp)
  | _ => false

theorem checkStep_sat {w : Content Fp} {out : Nat} (h : checkStep w out = true) : ∃ regions r,
    Merkle.layers generatorTable (affine pallasGen) 0 0 ⟨⟨8, 0, .advice 0⟩, none⟩ [(demoMerkle, none, none)] = .ok (regions, r) ∧
    SatAll demoMerkle.chip (fun _ => RangeCheck.load 10) w 0 regions ∧
    (∀ i (h : i < regions.length), LooksUp (demoMerkle.sins.lookup generatorTable) (Sinsemilla.load generatorTable) w (0 + i) regions[i]) ∧
    w.at r.cell = (out : Fp) := by
  unfold checkStep at h
  simp only at h
  split at h
  case h_2 => cases h
  rename_i ch pt z0a z1a zsa z0b z1b zsb more hh
  simp only [Bool.and_eq_true, beq_iff_eq] at h
  obtain ⟨⟨⟨h1, h2⟩, h3⟩, h4⟩ := h
  rw [← inv32_eq] at h1 h2 h3
  refine ⟨_, _, ?_, regions_sat_lookup h1 h2 rfl, looksUp_all h3, h4⟩
  unfold Merkle.layers
  simp only
  rw [layer_unknown (start := 0 + 1) (Q := affine pallasGen) rfl rfl hh, ok_then]
  rfl

/-- The hash of 5 and 7 in layer 0. -/
def steppedOut : Nat := 0x322603124308ce65c6898a12846731648020ff8d6465f373661ae9329be9db5

theorem stepped_check : checkStep stepped steppedOut = true := by decide +kernel

end Verif.Lemmas.Merkle
