import Verif.Model.Grain
import Verif.Spec.Grain
import Mathlib.Data.List.Nodup

/-! The register never yields only zeros at every second place. -/

namespace Verif.Pos

open Spec.Grain

/-- For each of the first 240 bits the set of bits of the register it is the sum of. -/
def masks : List Nat := [
  1, 2, 4, 8, 16, 32, 64, 128, 256, 512, 1024, 2048, 4096, 8192, 16384, 32768, 65536, 131072, 262144, 524288,
  1048576, 2097152, 4194304, 8388608, 16777216, 33554432, 67108864, 134217728, 268435456, 536870912, 1073741824,
  2147483648, 4294967296, 8589934592, 17179869184, 34359738368, 68719476736, 137438953472, 274877906944,
  549755813888, 1099511627776, 2199023255552, 4398046511104, 8796093022208, 17592186044416, 35184372088832,
  70368744177664, 140737488355328, 281474976710656, 562949953421312, 1125899906842624, 2251799813685248,
  4503599627370496, 9007199254740992, 18014398509481984, 36028797018963968, 72057594037927936, 144115188075855872,
  288230376151711744, 576460752303423488, 1152921504606846976, 2305843009213693952, 4611686018427387904,
  9223372036854775808, 18446744073709551616, 36893488147419103232, 73786976294838206464, 147573952589676412928,
  295147905179352825856, 590295810358705651712, 1180591620717411303424, 2361183241434822606848,
  4722366482869645213696, 9444732965739290427392, 18889465931478580854784, 37778931862957161709568,
  75557863725914323419136, 151115727451828646838272, 302231454903657293676544, 604462909807314587353088,
  4613938093127376897, 9227876186254753794, 18455752372509507588, 36911504745019015176, 73823009490038030352,
  147646018980076060704, 295292037960152121408, 590584075920304242816, 1181168151840608485632,
  2362336303681216971264, 4724672607362433942528, 9449345214724867885056, 18898690429449735770112,
  37797380858899471540224, 75594761717798943080448, 151189523435597886160896, 302379046871195772321792,
  604758093742391544643584, 594981808247041957889, 1189963616494083915778, 2379927232988167831556,
  4759854465976335663112, 9519708931952671326224, 19039417863905342652448, 38078835727810685304896,
  76157671455621370609792, 152315342911242741219584, 304630685822485482439168, 609261371644970964878336,
  9592314241369027651585, 19184628482738055303170, 38369256965476110606340, 76738513930952221212680,
  153477027861904442425360, 306954055723808884850720, 613908111447617769701440, 18895017218699492073601,
  37790034437398984147202, 75580068874797968294404, 151160137749595936588808, 302320275499191873177616,
  604640550998383746355232, 350668444594963218497, 701336889189926436994, 1402673778379852873988,
  2805347556759705747976, 5610695113519411495952, 11221390227038822991904, 22442780454077645983808,
  44885560908155291967616, 89771121816310583935232, 179542243632621167870464, 359084487265242335740928,
  718168974530484671481856, 227416743383883539820545, 454833486767767079641090, 909666973535534159282180,
  610403513518346033274889, 11885821360156019220499, 23771642720312038440998, 47543285440624076881996,
  95086570881248153763992, 190173141762496307527984, 380346283524992615055968, 760692567049985230111936,
  312454705051397541341569, 624909410102795082683138, 40888391157017246467589, 81776782314034492935178,
  163553564628068985870356, 327107129256137971740712, 654214258512275943481424, 99507311347466083819681,
  199014622694932167639362, 398029245389864335278724, 796058490779728670557448, 383186552510884439009809,
  766373105021768878019618, 323815776491365226547269, 647631552982730453094538, 86332672413288359919893,
  172665344826576719839786, 345330689653153439679572, 690661379306306879359144, 172401552936077711389009,
  344803105872155422778018, 689606211744310845556036, 170281989935899405822601, 340563979871798811645202,
  681127959743597623290404, 153334713810109443437641, 306669427620218886875282, 613338855240437773750564,
  17747276928153262195273, 35494553856306524390546, 70989107712613048781092, 141978215425226097562184,
  283956430850452195124368, 567912861700904390248736, 1135825723401808780497472, 1062721017755044642096257,
  916511606460966609496323, 624092783872810561073671, 39255138697048220025871, 78510277394096440051742,
  157020554788192880103484, 314041109576385760206968, 628082219152771520413936, 47234009256420382908897,
  94468018512840765817794, 188936037025681531635588, 377872074051363063271176, 755744148102726126542352,
  302557862653279723592737, 605115725306559447185474, 1301021564545992249477, 2602043129091984498954,
  5204086258183968997908, 10408172516367937995816, 20816345032735875991632, 41632690065471751983264,
  83265380130943503966528, 166530760261887007933056, 333061520523774015866112, 666123041047548031732224,
  123324871914960388764673, 246649743829920777529346, 493299487659841555058692, 986598975319683110117384,
  764267521590793318129681, 319613833000901205745699, 639227666001802411491398, 69534126327068775653517,
  139068252654137551307034, 278136505308275102614068, 556273010616550205228136, 1112546021233100410456272,
  1016161613417627918807457, 823392793283083291345731, 437855153013444280624775, 875710306026888561249550,
  542499401873091691985437, 1084998803746183383970874, 961067178443793865820277, 713213146706902301126891,
  217505083233119171723735, 435010166466238343447470, 870020332932476686894940, 531110236816380471684793,
  1062220473632760943369586, 915519737084836456209125, 622109040616950610335179, 35296875556815400733591,
  70593751113630801467182, 141187502227261602934364, 282375004454523205868728, 564750008909046411737456,
  1129500017818092823474912, 1050078829959099827013057, 891227226365477368736643]

/-- For each bit of the register a set of bits at every second place whose sum it is. -/
def inverse : List Nat := [
  906780844837745629076032, 250779265704994904930841, 604631256123318728660097, 501558531409989809861682,
  332078693915172014339, 1003117062819979619723364, 664157387830344028678, 797312915459823564746953,
  1328314775660688057356, 385695397367474600001939, 2656629551321376114712, 771390794734949200003878,
  5313259102642752229424, 333851155917725853754957, 10626518205285504458848, 667702311835451707509914,
  21253036410571008917696, 126474194621780740323637, 42506072821142017835392, 252948389243561480647274,
  85012145642284035670784, 505896778487122961294548, 170024291284568071341568, 1011793556974245922589096,
  340048582569136142683136, 814656684899918926295889, 680097165138272285366272, 420382940751264933693091,
  151263896724372024463361, 840765881502529867386182, 302527793448744048926722, 472610552824374304258701,
  605055586897488097853444, 945221105648748608517402, 1180740242253893640201, 681521001116811786504757,
  2361480484507787280402, 154120792052938125718635, 4722960969015574560804, 308241584105876251437270,
  9445921938031149121608, 616483168211752502874540, 18891843876062298243216, 24045130746968958403417,
  37783687752124596486432, 48090261493937916806834, 75567375504249192972864, 96180522987875833613668,
  151134751008498385945728, 192361045975751667227336, 302269502016996771891456, 384722091951503334454672,
  604539004033993543782912, 769444183903006668909344, 147574515814541296641, 329957934253840808343105,
  295149031629082593282, 659915868507681616686210, 590298063258165186564, 110910526835227541895429,
  1180596126516330373128, 221821053670455083790858, 2361192253032660746256, 443642107340910167581716,
  4722384506065321492512, 887284214681820335163432, 9444769012130642985024, 565647219183504995627089,
  18889538024261285970048, 1131294438367009991254178, 37779076048522571940096, 1053667671056934162587973,
  75558152097045143880192, 898404913064745650479755, 151116304194090287760384, 587879392576768998892823,
  302232608388180575520768, 1175758785153537997785646, 604465216776361151041536, 1142596360126940304094301]

theorem masks_start : ∀ i, i < 80 → masks[i]? = some (2 ^ i) := by decide +kernel

theorem masks_step : ∀ n, n < 160 → masks[n + 80]? = some (masks.getD (n + 62) 0 ^^^ (masks.getD (n + 51) 0 ^^^
    (masks.getD (n + 38) 0 ^^^ (masks.getD (n + 23) 0 ^^^ (masks.getD (n + 13) 0 ^^^ masks.getD n 0))))) := by
  decide +kernel

/-- The sum of the masks at every second place that a set names. -/
def combine (c : Nat) : List Nat → Nat
  | [] => 0
  | k :: l => (if c.testBit k then masks.getD (80 + 2 * k) 0 else 0) ^^^ combine c l

theorem inverse_ok : ∀ i, i < 80 → combine (inverse.getD i 0) (List.range 80) = 2 ^ i := by decide +kernel

/-- The sum of the bits that a set names. -/
def dot (b : Nat → Bool) (m : Nat) : List Nat → Bool
  | [] => false
  | i :: l => (m.testBit i && b i) ^^ dot b m l

theorem dot_zero (b : Nat → Bool) (l : List Nat) : dot b 0 l = false := by
  induction l with
  | nil => rfl
  | cons i l ih => rw [dot, ih, Nat.zero_testBit]; rfl

theorem dot_xor (b : Nat → Bool) (m n : Nat) (l : List Nat) : dot b (m ^^^ n) l = (dot b m l ^^ dot b n l) := by
  induction l with
  | nil => rfl
  | cons i l ih =>
    rw [dot, dot, dot, ih, Nat.testBit_xor]
    cases m.testBit i <;> cases n.testBit i <;> cases b i <;> cases dot b m l <;> cases dot b n l <;> rfl

theorem dot_pow (b : Nat → Bool) (i : Nat) (l : List Nat) (h : l.Nodup) :
    dot b (2 ^ i) l = (decide (i ∈ l) && b i) := by
  induction l with
  | nil => rfl
  | cons j l ih =>
    rw [List.nodup_cons] at h
    rw [dot, ih h.2, Nat.testBit_two_pow]
    by_cases hj : i = j
    · subst hj
      simp [h.1]
    · simp [hj]

/-- Every bit is the sum its mask says. -/
theorem dot_masks {b : Nat → Bool} (hb : Feedback b) : ∀ n, n < 240 → dot b (masks.getD n 0) (List.range 80) = b n := by
  intro n
  induction n using Nat.strongRecOn with
  | _ n ih =>
    intro hn
    by_cases h : n < 80
    · rw [List.getD_eq_getElem?_getD, masks_start n h]
      show dot b (2 ^ n) _ = _
      rw [dot_pow b n _ List.nodup_range]
      simp [h]
    · obtain ⟨m, rfl⟩ : ∃ m, n = m + 80 := ⟨n - 80, by omega⟩
      have hs := masks_step m (by omega)
      rw [List.getD_eq_getElem?_getD, hs]
      show dot b (_ ^^^ _) _ = _
      rw [dot_xor, dot_xor, dot_xor, dot_xor, dot_xor, ih _ (by omega) (by omega), ih _ (by omega) (by omega),
        ih _ (by omega) (by omega), ih _ (by omega) (by omega), ih _ (by omega) (by omega), ih m (by omega) (by omega),
        hb m]
      simp only [Bool.xor_assoc]

theorem dot_combine {b : Nat → Bool} (hb : Feedback b) (h0 : ∀ k, k < 80 → b (80 + 2 * k) = false) (c : Nat)
    (l : List Nat) (hl : ∀ k ∈ l, k < 80) : dot b (combine c l) (List.range 80) = false := by
  induction l with
  | nil => exact dot_zero b _
  | cons k l ih =>
    have hk := hl k (by simp)
    rw [combine, dot_xor, ih fun k h => hl k (List.mem_cons_of_mem _ h)]
    by_cases hc : c.testBit k
    · rw [if_pos hc, dot_masks hb _ (by omega), h0 k hk]
      rfl
    · rw [if_neg hc, dot_zero]
      rfl

/-- If 80 bits at every second place vanish, then the register was empty. -/
theorem all_zero {b : Nat → Bool} (hb : Feedback b) (h0 : ∀ k, k < 80 → b (80 + 2 * k) = false) (i : Nat) (hi : i < 80) :
    b i = false := by
  have h1 := dot_combine hb h0 (inverse.getD i 0) (List.range 80) fun k hk => List.mem_range.1 hk
  rw [inverse_ok i hi, dot_pow b i _ List.nodup_range] at h1
  simpa [hi] using h1

end Verif.Pos
