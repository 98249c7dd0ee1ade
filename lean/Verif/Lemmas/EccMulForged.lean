import Verif.Lemmas.EccMul

/-! A product that is accepted and wrong: the numbers of a prover who uses another base within the loops. -/

namespace Verif.Lemmas.Ecc

open Verif.Gadget Verif.Spec.Gadget Verif.Spec Verif.Spec.Ecc Verif.Lemmas.Gadget
open Verif.FloorPlanner (Call)
open Verif.Spec.Pow5 (SatAll)

section check

variable {F : Type} [Ring F] [DecidableEq F] (chip : Chip F) (w : Content F) (region : Nat) (calls : Calls F)

/-- The call is met, and the gates where it enables. -/
def okCall : Call (Option F) → Bool
  | .enable s o => chip.gates.all fun g => g.1 != s || g.2.all fun e => e.eval (enabled calls) (w region) o == 0
  | .constant col o v => v == some (w region (.advice col) o)
  | .fixed col o v => v == some (w region (.fixed col) o)
  | .equal a b => w.at a == w.at b
  | .equalConstant c v => v == some (w.at c)
  | _ => true

variable {chip w region calls}

theorem ok_enforced (h : calls.all (okCall chip w region calls) = true) : ∀ c ∈ calls, Enforced w region c := by
  intro c hc
  have := List.all_eq_true.1 h c hc
  cases c <;> simp_all [okCall, Enforced]

theorem ok_gates (h : calls.all (okCall chip w region calls) = true) : ∀ g ∈ chip.gates, ∀ e ∈ g.2, ∀ row : Int,
    (Verif.Gadget.Expr.selector g.1 * e).eval (enabled calls) (w region) row = 0 :=
  gates_of fun g hg e he o ho => by
    have h1 := List.all_eq_true.1 (List.all_eq_true.1 h _ ho) g hg
    simp only [bne_self_eq_false, Bool.false_or] at h1
    exact eq_of_beq (List.all_eq_true.1 h1 e he)

end check

/-- The gates of a loop with the inverse of 2 given. -/
def forLoopWith (half : Fp) (c : MulIncomplete) (yNext : Verif.Gadget.Expr Fp) : List (Verif.Gadget.Expr Fp) :=
  let one := Verif.Gadget.Expr.const 1
  let zCur := Verif.Gadget.Expr.advice c.z 0
  let zPrev := Verif.Gadget.Expr.advice c.z (-1)
  let xACur := Verif.Gadget.Expr.advice c.da.xA 0
  let xANext := Verif.Gadget.Expr.advice c.da.xA 1
  let xPCur := Verif.Gadget.Expr.advice c.da.xP 0
  let yPCur := Verif.Gadget.Expr.advice c.yP 0
  let lambda1 := Verif.Gadget.Expr.advice c.da.lambda1 0
  let lambda2 := Verif.Gadget.Expr.advice c.da.lambda2 0
  let yACur := Verif.Gadget.Expr.scaled (c.da.yA2 0) half
  let k := zCur - .scaled zPrev 2
  [ boolCheck k,
    lambda1 * (xACur - xPCur) - yACur + (.scaled k 2 - one) * yPCur,
    lambda2.square - xANext - c.da.xR 0 - xACur,
    lambda2 * (xACur - xANext) - yACur - yNext ]

def loopChipWith (half : Fp) (c : MulIncomplete) : List (Selector × List (Verif.Gadget.Expr Fp)) := [
    (c.qMul1, [.advice c.da.lambda1 0 - .scaled (c.da.yA2 1) half]),
    (c.qMul2, [.advice c.da.xP 0 - .advice c.da.xP 1, .advice c.yP 0 - .advice c.yP 1] ++
      forLoopWith half c (.scaled (c.da.yA2 1) half)),
    (c.qMul3, forLoopWith half c (.advice c.da.lambda1 1))]

/-- The chip with the inverse of 2 given. -/
def chipWith (half : Fp) (c : Mul) : Chip Fp where
  gates := c.lsbGate :: (c.add.chip.gates ++ loopChipWith half c.hi ++ loopChipWith half c.lo ++ c.complete.chip.gates ++
    c.overflow.chip.gates)
  lookups := c.overflow.chip.lookups

theorem chipWith_eq (c : Mul) : chipWith 2⁻¹ c = c.chip := rfl

def half : Fp := ((14474011154664524427946373126085988481681528240970780357977338382174983815169 : Nat) : Fp)

theorem half_eq : (2 : Fp)⁻¹ = half := inv_eq_of_mul_eq_one_left (by decide +kernel)

/-- A configuration with the columns as `configure` has them. -/
def forgedMul : Mul :=
  let add : AddComplete := ⟨⟨0, true⟩, 4, 0, 1, 2, 3, 5, 6, 7, 8⟩
  { qLsb := ⟨1, true⟩
    add := add
    hi := ⟨⟨2, true⟩, ⟨3, true⟩, ⟨4, true⟩, 9, ⟨3, 0, 4, 5⟩, 1⟩
    lo := ⟨⟨5, true⟩, ⟨6, true⟩, ⟨7, true⟩, 6, ⟨7, 0, 8, 2⟩, 1⟩
    complete := ⟨⟨8, true⟩, 9, add⟩
    overflow := ⟨⟨9, true⟩, ⟨⟨10, false⟩, ⟨11, false⟩, ⟨12, true⟩, 9, 0⟩, 6, 7, 8⟩ }

/-- The first region, row by row, columns 0 to 9. -/
def forgedRows : List (List Nat) := [
  [28948022309329048855892746252171976963363056481941560715954676764349967630336, 2, 28948022309329048855892746252171976963363056481941560715954676764349967630336, 2, 7237005577332262213973186563042994240840764120485390178988669191087491907585, 0, 28948022309329048855892746252171976963363056481941560715954676764349967630336, 28948022309329048855892746252171976963363056481941560715954676764349967630336, 21711016731996786641919559689128982722522292361456170536966007573262475722753, 0],
  [0, 0, 12664759760331458874453076485325239921471337210849432813230171084403110838275, 19449452489080454700052938888178047022259553573804486106032048451047634501628, 19449452489080454700052938888178047022259553573804486106032048451047634501628, 0, 0, 0, 10337747657727128232028148259694522308789383948906489609656862825145684160141, 0],
  [23762365149222654375217391090056318998829316045255180157815164466428182274747, 11876596076018914933363889912762443449213405995285816246404623442455518133882, 19792571742768178752472944448003843943757306250034231171690879814907722617094, 12664759760331458874453076485325239921471337210849432813230171084403110838275, 6386196382334550246136356879129078109214430825125398627756352925138639311662, 2589530975317597304850262251693521852955527719858399871301023974166550057516, 0, 10173868292079593079174668513304965389921394204372412624760265579415839432356, 26623854915546700974569533736822120205161845008008317072305272250478075411934, 0],
  [23762365149222654375217391090056318998829316045255180157815164466428182274747, 11876596076018914933363889912762443449213405995285816246404623442455518133882, 7062760860369546707620162884334454313245918411164092894492649082688168739364, 26400220908681239419063717556980781161627135189922272703958167339248870774282, 6473533902438865158908622850765462658386339333925184586126849891086483023182, 6586514343613546142737614854404299375203948851216401979079408395162145919795, 0, 5375826331258512094947404307655039122580763697496395009157956920718489336428, 8032404173221555890116184281282993443232929553208784875697412365642494282603, 0],
  [23762365149222654375217391090056318998829316045255180157815164466428182274747, 11876596076018914933363889912762443449213405995285816246404623442455518133882, 24037598300477630757015286062507080280989145010528464927630777305693234830690, 19757262784642430506086631233105576451304077041011950553467033698502975731599, 11419238597545041963337036079115794381301079925644244200398059235521891797297, 21209059341783768170800941796006197537071096135197006442110258138116146722948, 0, 13226502711897898608551338913047662283874655583686258071019984552374321854569, 9804924308936878209529605504293893138264903270095194935579352712342999947334, 0],
  [23762365149222654375217391090056318998829316045255180157815164466428182274747, 11876596076018914933363889912762443449213405995285816246404623442455518133882, 8590004371438066787024890164808660709611410647658464195946209867489901591679, 27283586468044931111392364343570934455377795884373814572691247468437979430484, 3724699180850651551288684786596769968694611851282524706077104804946991971557, 7395561065550823718165792550743973188651581593155655885411049764955549386339, 0, 4609022774216746835491203998598589544612508572563262910778897126575961346972, 19681406557740406193023358616754771659338976883435884845910715158573056341411, 0],
  [23762365149222654375217391090056318998829316045255180157815164466428182274747, 11876596076018914933363889912762443449213405995285816246404623442455518133882, 1399790534502513379147286987042498308681580077391613989967017239218189161781, 20938981212386304228434403107236622104349505711917540503063263906435663418889, 13013756649737257380420117307326016094251085996787754095524486604542631369677, 1502333548418795608525802094452518284046720563618519361519404681036347702605, 1, 18764395926655488560267108558994174829333848772907657689141088001467309230936, 489410342406388712860423897846909761104473452591273660316479161143877826846, 0],
  [23762365149222654375217391090056318998829316045255180157815164466428182274747, 11876596076018914933363889912762443449213405995285816246404623442455518133882, 8708296593361938822635512303314728340435663733689043466579330841680535243229, 13065529062576002256613676249018405291808112213804442849805002302475644603808, 4312160973244476993868389568384848571321776146644028747607318992795299073814, 2366142061196649146061910599410382436500066962665698370902412660181473164034, 2, 10697873191090038556942270272904023268922815362221356171539303022272949040867, 4424877144426248329054376436024304420857883289389952601279954296970861759355, 0],
  [23762365149222654375217391090056318998829316045255180157815164466428182274747, 11876596076018914933363889912762443449213405995285816246404623442455518133882, 12447651672224820208134543555613551640117280296534017223525221030631807689036, 25969529278437873143038448723365976259181517297675933995210501146268740948717, 11663407874516825241296219483217171564543943819250953625588351323881389499613, 7036510467950835773106235311625332032318047668443464046847076251007297309218, 4, 4242361794410991050157127660278309180512744688321647321131974375520967969198, 5874480543733441316756140861543236707371942713725450387559615178391735258508, 0],
  [23762365149222654375217391090056318998829316045255180157815164466428182274747, 11876596076018914933363889912762443449213405995285816246404623442455518133882, 28783620835299880313084244583719573635286031168589165358995791746785144817446, 19079154325853157249526114352816034235560048339632456560707019047257327029913, 3871906557730715240535522561453061663770582401807178485893941768835368373730, 5904712199706794364313110436852289393333455947128750577739359131674540407789, 8, 137673753785497623494544641946829409047622932665258513390771616380299505643, 21219659273391652172761276647198603957046535490911388255504149130373404166190, 0],
  [23762365149222654375217391090056318998829316045255180157815164466428182274747, 11876596076018914933363889912762443449213405995285816246404623442455518133882, 9352566510186782335283109501953327679696002073562970197720962473720623046902, 7563222158999555807371909466070998441840817995131001738441565982523410038309, 16963855052367590632627395384761521284920059979294891611318534870544974004079, 22057474861048081844128579032849592262127491762852292917531124939769021799659, 17, 4193078122275520086399173715405005142962221070739324539068458802327580277917, 216550930367080627421149037205545977142464047596519783069123416082315806076, 0],
  [23762365149222654375217391090056318998829316045255180157815164466428182274747, 11876596076018914933363889912762443449213405995285816246404623442455518133882, 24691873695338369606654726405239447536875383612921477778795885934679087773503, 4870295041974306377410129463826778985483439759621864779935142513513678694131, 27074057661947548364365795069525668714200659914531298473266822729692419248459, 3429888933361794080579693805482785207142258490232392613170176436992192529797, 34, 362129297421205236017302173005986196544044672780523726193838839513067406340, 6833014619084009256352928803070686222299207448707146415245936875251608446208, 0],
  [23762365149222654375217391090056318998829316045255180157815164466428182274747, 11876596076018914933363889912762443449213405995285816246404623442455518133882, 23153652934043507412805513624588688343329931476885793037329643744957830792494, 13278931582654310629809214911264045370782483253694001731108877687866427512774, 5528802764910414111143804937943475622642710627511499937824442661063108740766, 7784971754543294020091181364659069613403664850698371622658509430736852869410, 68, 6297278522838189564234020329632994790473286492825771209962225707369553943889, 7999536960598995218639255935921393386290707014901799362741701331941670440031, 0],
  [23762365149222654375217391090056318998829316045255180157815164466428182274747, 11876596076018914933363889912762443449213405995285816246404623442455518133882, 24898659571377262493277034456730085281508547957629939971076957557929333565440, 29341643382225041359986095455655751450975655258716250745948530599161545532, 22919202144226376187512933814010717098906332473480354676970541923739126385278, 11417779422640330116814182508153490245260069336152850820560976446684647445080, 137, 735711346206360165575321323691254097157768025322866169449911144525313319148, 22051090493526630921151968726970568033440700369817030789934274154723206941891, 0],
  [23762365149222654375217391090056318998829316045255180157815164466428182274747, 11876596076018914933363889912762443449213405995285816246404623442455518133882, 23439462383287421478155829909906022265502382411464582579842434918673383756827, 5860027782159603425007289951566136168961708736867958380837824081717846328558, 22293666865996350300574154311169564789028388831975554111651903245195995165031, 4983911434787417388816382233879758371027568774838075362874494693839935918497, 274, 1653310960532130601796239887912464674673341368271477329059517911880505479363, 17638600370529026919635846339494763178264527547848765522291707622310943231626, 0],
  [23762365149222654375217391090056318998829316045255180157815164466428182274747, 11876596076018914933363889912762443449213405995285816246404623442455518133882, 22855899145398125811529364599618807887694318365715384270471995725668200426142, 11085964807021175057591105603936498732773110919650918185650308806598717599501, 24281535379872963182234128812937712451124005456764462498169608709502267192067, 24607736564434167626199816604779717853165057934175589656162808361894602205125, 548, 2470530283877752090261682335559460989160476531685635400053930056954462924651, 19788212953763801096176659463161487843878376844148391859622150194857526440733, 0],
  [23762365149222654375217391090056318998829316045255180157815164466428182274747, 11876596076018914933363889912762443449213405995285816246404623442455518133882, 22396711999512709087738572171149968747805442973950300377359167826016005930850, 3471909699683890534634832716253494567765989121725501805454271370083389312830, 25437826217196527417856042785714544750959810175070432678324260594796186885329, 19978264223661695397199687013220821577008998418807741400519108603698242258134, 1096, 22707921534569735544305177294189829490371165333388804250878625122231676432894, 22329271111366406849409156301718506031819320107261444981693158197199817123619, 0],
  [23762365149222654375217391090056318998829316045255180157815164466428182274747, 11876596076018914933363889912762443449213405995285816246404623442455518133882, 14589019188015198094002654863948340346563426516282526854768049687188566721830, 10510981846198501302579223533959182484211407680101138420579691701823880367261, 25475757852523247082738936476058264062569600016719749141998154561381796125447, 4993278401318724751027248026873323990417775711416994894835342885726824988588, 2193, 10307732853595759640913584727055291511888353176763478287835069224431530197037, 24582215642084706827198032945535886675552463409300826087199358860853870178850, 0],
  [23762365149222654375217391090056318998829316045255180157815164466428182274747, 11876596076018914933363889912762443449213405995285816246404623442455518133882, 21242703119610569059101904733518736171421001350512710144736875099525168504468, 15823818868585339410234990659218087548945462703088833913725002287037093246170, 23201481324428008995052751669751839112834424418558832385398349565975130886529, 11312983091723097942739590142428100239791951119410176983318916986258603693232, 4387, 15709619604392215826422482910485478156885954630545493942078195812202732298123, 652360577780381068933606033404877557552686824392568398974097265321688662707, 0],
  [23762365149222654375217391090056318998829316045255180157815164466428182274747, 11876596076018914933363889912762443449213405995285816246404623442455518133882, 1799977104979400803598861203235249092364946142912566158692366738090448293758, 9234071722816941906274286491322557462062703446703590397650816816515326516750, 21924266260036044572622768302131451284379844261585663043297172322337755895813, 24151402603051764997904759374709949907936128394722202231566872293070162047055, 8774, 4036039691631247784861771955110917968852662507315814635165112850815989737323, 2480565792373310195651579323276710224543292096022900648442293663217382982462, 0],
  [23762365149222654375217391090056318998829316045255180157815164466428182274747, 11876596076018914933363889912762443449213405995285816246404623442455518133882, 15976133438277278868838420646002883953224007325087017276825508217544658019923, 19436845817738986304687692507805801904800403386686606927896876856043427917171, 857497934292913777782974274355153583352878529432213200655206380924961353638, 13025478153123313592959883614201768442843688621346469217030186807292466543373, 17549, 28546583506006722755117938041051240249299900100023362827463348872009668726868, 14261379894994447044101666248969856779688061162547033899229890947550551599592, 0],
  [23762365149222654375217391090056318998829316045255180157815164466428182274747, 11876596076018914933363889912762443449213405995285816246404623442455518133882, 10905463391018156449684060913042742593338940187528557861254003641492990392376, 10461671405291538292573471939431300246481304782719326421669359404415989456085, 8148914852058964015873212344899446852281063983357669920123903429277575439235, 13095647902676568646386228082613436976692630861446864632180935716580699961735, 35098, 19239118591458406646429344421191727692923014244123447622477318909137807388076, 17154626459718990969135605370034132294749403565139089326775667180032554264993, 0],
  [23762365149222654375217391090056318998829316045255180157815164466428182274747, 11876596076018914933363889912762443449213405995285816246404623442455518133882, 16186071723476030988946881865977414467233163617977533319212701586925216896297, 15779048656914430442444016231751842040683371593150671600428244862519517683461, 8650730340521083779920206331781498928469421160621784461650072842846089111669, 2805025432589290147178180538294556492332905671685366368923369646704012526570, 70196, 601926088054850998334905101207296862869751909063198232540181553304326715140, 20897893994153471099811587547686376828829615214280571250289395529986723630012, 0],
  [23762365149222654375217391090056318998829316045255180157815164466428182274747, 11876596076018914933363889912762443449213405995285816246404623442455518133882, 26928232225037476369619328553221776442530209454050592802972588935522851233710, 590391103269937678063881652430522514905518362050871602915911891735999893388, 27877638956170195380501311666680126858603439481474192321122358649942794394575, 15212472188804749996242673432634116070728371175160488708936617855523378475407, 140393, 2751155431951573203997776729269054358215758143343977300949157208706943479681, 7315369072541218464753264692716684733787532627387030196478541208822238219120, 0],
  [23762365149222654375217391090056318998829316045255180157815164466428182274747, 11876596076018914933363889912762443449213405995285816246404623442455518133882, 21040542297630346721722454691048038856546334479806306438435024313485479127582, 28313064139049984329541510851067579035592137963151813726257763098814492887739, 737991152067721153678317631581052468450266647256834016410614552917344109408, 23282473431726432371346212242854416475543085920881926147723084478594831000400, 280787, 13940317602541098420847814230171399924979027583249988240114882540861363237306, 13778250921635321952607572590491257994858135237444742369749697597025009096929, 0],
  [23762365149222654375217391090056318998829316045255180157815164466428182274747, 11876596076018914933363889912762443449213405995285816246404623442455518133882, 14127269800374024020808473147301941073191930383268015146886059760410697877508, 22099648701784782160508012776707783994615401414351949485585899377057946861119, 10637426333008750983415002255498967632035842916402619694779567077730058907650, 21558971943096093943241671637352223948276352781233880878003464090748742998254, 561574, 9359512425344781480309254262122254090935757969540623499370004062379569942671, 13012718081743579698373043380511479632927047067614209119514436122408826533388, 0],
  [23762365149222654375217391090056318998829316045255180157815164466428182274747, 11876596076018914933363889912762443449213405995285816246404623442455518133882, 18469781072661647501829804202169102606537888370252745211544094298122578579513, 3527591966691962206082790622427458108648715324002125421552673422002510199315, 10263067339390717660135183038010189560340340174422233700855370733297870778818, 25435910502103871257304321232700058142693518410422436561316619277697750373211, 1123148, 10856097988181006080039895183629417040233864312387195728976366030738002102365, 22886705635056052373319702511250720673728727919501332330647606871851718631071, 0],
  [23762365149222654375217391090056318998829316045255180157815164466428182274747, 11876596076018914933363889912762443449213405995285816246404623442455518133882, 28512274535813423790755515312747851931671527759997733576101365986071459926561, 16157339654363194512835519480431513892297571589294949549923632422257459834197, 1044890548740512576431253288694133430977123210689658561078959607323661856124, 24625168286539659791021594808667158390744374896002030199220803697661088113395, 2246296, 18269284596202221493513108794115437215945414268670752310993566360808693584148, 26443637310827671136100383968230387652281719282820328217741530486674536117529, 0],
  [23762365149222654375217391090056318998829316045255180157815164466428182274747, 11876596076018914933363889912762443449213405995285816246404623442455518133882, 7192657724760008277974619448753680152027566964861167959964337255884418119412, 26066070453310837612180287952755795391052456779944619395155310744968795856472, 3407810014365443123606533873026024655335530458001675504120304836031390367882, 7601407415364107878960578765365901488574705452329780975721118824968098770659, 4492593, 20998271230270832293279511083121194224616826657613218495838619127016016705187, 575034603003942508838109710419537031515906711032951928348117716244628159298, 0],
  [23762365149222654375217391090056318998829316045255180157815164466428182274747, 11876596076018914933363889912762443449213405995285816246404623442455518133882, 3851700703713453855053282919266297985747362365328488600484933147171521304721, 8950382941678607119481497438153774063834634397701575172190808328563122037023, 5264575417456816429408904300070822440820229087547373429063539701034696435897, 28591466242343870980880274139204882686288827336559996500423658131753402600282, 8985187, 18804781957818834573003372034096538788113636026310430709351779701006929029662, 1829041793351745299662487361284534682135883331434901082092363762561525718064, 0],
  [23762365149222654375217391090056318998829316045255180157815164466428182274747, 11876596076018914933363889912762443449213405995285816246404623442455518133882, 28625384182120649230350854018038647526316341691415188306882506147674518963535, 19240602308052997163556379393517224504885339092306889197120453843773514837686, 21694160141236328689301944059613455469372120717712065626584806826975494992998, 16549617826105458662292280279758900080496758305374654856180140386108334597886, 17970375, 20433032352937668641779533305965687005748504627924688650805602785069517134032, 15238320066258906414285547858563327200493595880611039360551244953516451800554, 0],
  [23762365149222654375217391090056318998829316045255180157815164466428182274747, 11876596076018914933363889912762443449213405995285816246404623442455518133882, 27696824258725257421241960964448768622595320492961271647423421788198217293043, 25144179580568289791352733433726149788296121873600978189112511983346046266280, 10125187939914161570522686192302033561747501205736088414587883438127936274185, 3850698096403993802979554330404060698572614287634922523071945535413717799691, 35940751, 14302071310011095951080540564500897376563718475651462178246335683446606923727, 23539925343202364643325108265398559910863306209996317187392516571232908518735, 0],
  [23762365149222654375217391090056318998829316045255180157815164466428182274747, 11876596076018914933363889912762443449213405995285816246404623442455518133882, 21845514312271077783118731504501827799082817740163096250345916822961526141773, 22459622236689332389370480551908819427243086195436876723379116164822770248945, 11396343204843856575957914267240354335264069332275907156954640837156418309368, 1022907884478126614961309439562871554511965290114925941272220506618618103225, 71881503, 22264738781117752850238862457923152770264169000282112417865806018610562609386, 7161912761070476605986662581161796337565198155142819529059791267392467479513, 0],
  [23762365149222654375217391090056318998829316045255180157815164466428182274747, 11876596076018914933363889912762443449213405995285816246404623442455518133882, 14307682164334191887128721956308506554949086239774295675026494637755404919084, 18622941523582465570959083425985316437607252005879027938068324176912617616426, 14059915667915431535874292619721854332221306160261742669567146906242358426115, 2308041939893012142942437330235975434982509934012687873816704423280570274614, 143763007, 12209885562192072988730353998184784475546393369200415143738880912398043490038, 19532065990740830852819013988457540446634346584756112147359376575705039284238, 0],
  [23762365149222654375217391090056318998829316045255180157815164466428182274747, 11876596076018914933363889912762443449213405995285816246404623442455518133882, 15258441116339138259561226784586993699851512574547246822392025171831595235038, 16285634838670214455697073637838503496956536705247462560240110076769197435575, 15058727681950146990397787472593407812737715223839259936253829526681169701540, 19184613000442604710709335492989472741623561524431462776119702001371653874873, 287526014, 28372551067831538788126756558905585411394014357296112680110210309356083503735, 5851199760330028218156183056618862127196108858999161354737052102387712111693, 0],
  [23762365149222654375217391090056318998829316045255180157815164466428182274747, 11876596076018914933363889912762443449213405995285816246404623442455518133882, 28684232647987323523856060202929450131228836683022181225042598008162038050008, 20876605644407101424955102866794567676905418303797270220574337330652018322852, 21725869976290582956510315678404369678870871729464454847862581020483944493962, 2667088493032111117869390902302906130023953877266258109163289250750133049279, 575052028, 16871591898045150918419718951894056108995190134894589681815700580374479482598, 6263505528262154980126036382356358327439321984493284748108481562739282655637, 0],
  [23762365149222654375217391090056318998829316045255180157815164466428182274747, 11876596076018914933363889912762443449213405995285816246404623442455518133882, 22768802803400853306423552117982495781921981580859540831135606027345684370237, 10837069836078925516223356610214328933695206459081292338980962397665391509235, 18479164706411656470355519079002312314963277470626457412499722426678500765225, 27463998771765886113216874479052117204436696503473145026877346808695360922175, 1150104056, 16273291443956079415147339909026504885909546830956754093944819765649111229838, 16472032663277414586343894395373276494411717092566209778490258235992344982453, 0],
  [23762365149222654375217391090056318998829316045255180157815164466428182274747, 11876596076018914933363889912762443449213405995285816246404623442455518133882, 20903372563776207754797452051450055981134784000763315635543761318058346385513, 20864929583461683770829091178308736652223247854105928206226671483480977813569, 413622216127732117924305147451490142267515650733742518459244402420328866843, 18416599035209988361341333118530800138104534222857706459374689993981188119406, 2300208112, 15940219375756490197318439456866822378057675642123020002639043960645129778217, 8247149151925159758378419408542565333375405213022861021221114899915675202125, 0],
  [23762365149222654375217391090056318998829316045255180157815164466428182274747, 11876596076018914933363889912762443449213405995285816246404623442455518133882, 15079873648862759991799353071888797950221388378469327523195675787593244426933, 23898244234319188584502360842867588781458041592822591149113856919772249170992, 4434899103021371861582398027101053619951893516001753312867041076063618974892, 18630750059812644237096497802258970182819229882482774719019696910804086284392, 4600416224, 4110591080295151877601091958215163295243324943217890199528602065539570211267, 18030829289303260636145584852474002486725290807422663053823049847731826458217, 0],
  [23762365149222654375217391090056318998829316045255180157815164466428182274747, 11876596076018914933363889912762443449213405995285816246404623442455518133882, 6774677671772077561517370184397807446045888499063259156117675974550517113368, 3297555937457744172915940046883082221863537418459154699626800930378938872882, 17353625849791103110599361477420180196365245866379105380068114507638556121792, 12265993867972957677407446987713484740417642224703188563720761640095292378915, 9200832448, 10019220055180382663185456752451553045072139285696904471026853287579819160681, 2854920029083276415349897806745696327776623125422329884324242797552648617570, 0],
  [23762365149222654375217391090056318998829316045255180157815164466428182274747, 11876596076018914933363889912762443449213405995285816246404623442455518133882, 14892338249854042662902486519958752970288782544983928504542785796343503592066, 27736015503741744379666779300493856857544349963381389279968808882394421220883, 20501817387872906431851995204998334482019658187264932032380815887263088156142, 13639279994798281680624716526738461928708650154737117463709272558699720190797, 18401664897, 517952748199611830705820102343130371672287367406327214534138631574871292851, 16236709176024894241096763209029252916585704357499810098004784162813613491216, 0],
  [23762365149222654375217391090056318998829316045255180157815164466428182274747, 11876596076018914933363889912762443449213405995285816246404623442455518133882, 2677551861609002879628505962053746923967217930597321932864116216183480585988, 1402230956526498963874482974381656222720625815693990250396294557991199788173, 12493382322743738132006209986330946524335141277369873311144665866984315236117, 28571195859044674260702800345002304987067896031949400464316007723903547104044, 36803329794, 11402680186924430759830245337848378984690019132986717618951817953629711131283, 13042304237657739219285951935581959127404944513924021673276605100220199526976, 0],
  [23762365149222654375217391090056318998829316045255180157815164466428182274747, 11876596076018914933363889912762443449213405995285816246404623442455518133882, 25427971587775741626854251514605283392845891931528202668476935273239983067773, 11035142059510081810968246771972198902602111119139076320709072396419846455850, 26518163193764124164114358907101686958474257489127864270417657692913629830515, 15008716758900796442112866267207534298240317610367463167201800359598141746692, 73606659588, 18707650120296751681302850186321780024408219864600522216024637719545565854800, 14992005586516418328454662543165886743086597133814754260460594737366857124792, 0],
  [23762365149222654375217391090056318998829316045255180157815164466428182274747, 11876596076018914933363889912762443449213405995285816246404623442455518133882, 8934716350365061649640383887361291958482560913341186097204285365064267465196, 5615319721807866521101156231995521798621510304298776202818293682999262095568, 13827838341597149539484420229663998781027930778383941318988313633422106912628, 19640234515990488671326137380518415004092545104369039869265266536997404278962, 147213319177, 19212225451188242697022527937960442069946521559294239286021102016686715165261, 19034592725093425927024232824402099440357760297949775921931278363310724307537, 0],
  [23762365149222654375217391090056318998829316045255180157815164466428182274747, 11876596076018914933363889912762443449213405995285816246404623442455518133882, 12514310208149822439980912799282511317153148605012957792239464718611565651817, 26996322565857143071547865272456899070348582968896577095795413976649996627524, 15217626570361824285520315810828543697954233376812937328886273977101746214170, 27938712054920916788611206599887987259072897572355711515130684127591481363984, 294426638355, 19471896815921079476619448512692358580349760459491853366309606563318013226020, 7222212137318652857721150493247700638981823907097523420270860628656006498507, 0],
  [23762365149222654375217391090056318998829316045255180157815164466428182274747, 11876596076018914933363889912762443449213405995285816246404623442455518133882, 5338727362372390344534169066092671677754111380748546812185104084242867239714, 25779895157914255620168035778318810287097375836727405189105530791088562880831, 15471892217070534538175564322481402108577119345179032693908619944955014022355, 6418308894703662065816089911682495254116448010170512516129412608624097769804, 588853276710, 15045580310039717812091786828539355723105715902778292074173050344476760709886, 12226331540432491751143514731729114457303684997543756744201940940962251425373, 0],
  [23762365149222654375217391090056318998829316045255180157815164466428182274747, 11876596076018914933363889912762443449213405995285816246404623442455518133882, 23709172537428786923381442379093555023436857415517563397520191681060957252592, 12672929443398930685900073681615816005510266660465083288289132711637110718452, 2536229415542352204934727305215534211485317662684251345305416451040605435101, 10294937313710082108200136107736513823082334461509802254840731521706019237754, 1177706553420, 12541097362951476209372183681469156092935770659740093187102985283985537881478, 16610648277430458777165343799958454706617547360141999045581981027884043804851, 0],
  [23762365149222654375217391090056318998829316045255180157815164466428182274747, 11876596076018914933363889912762443449213405995285816246404623442455518133882, 12513600658419179718063388881458249596586568635591247954819103386542125929657, 1304618624775197490527539694082420885696158341561662271877256627271715340074, 12494268177971665901075079076050682115061637229896833945136342263784037640863, 10510487904660453016898402968718516088114841041875877991778614203191762968666, 2355413106841, 5745087095992638883150110407732401361101102238974641604383759589268159533190, 16063121680546965532496379035911239930673315512742857417816527788212335307339, 0],
  [23762365149222654375217391090056318998829316045255180157815164466428182274747, 11876596076018914933363889912762443449213405995285816246404623442455518133882, 3622747131359739674852035715321212728248197681603207097411083841891284639689, 12086041720475625735775317635970077743235077829125841145629564618553499641520, 3245114172993377545888612039987173427202270219681531805600364220574313914203, 15093852150591957437036227979552490464729167268817928045211929287595514176218, 4710826213682, 9794535829372469381836161413484247303579003975947511912975030452352498989528, 13232173630239390272835060807852392951893513179683739437035023661076184232071, 0],
  [23762365149222654375217391090056318998829316045255180157815164466428182274747, 11876596076018914933363889912762443449213405995285816246404623442455518133882, 28386850255754554984247327528507984566001576300611601092984302679545712491512, 25855584523398179715649674456252403813307596704318696306004540510992641739209, 5347201376405875961794589584150157307025136145378814743032871513753719720353, 2406222155361031744771393363040927736570623001823483494436160741853014669703, 9421652427365, 25042952498614874940004828273975466772528259580474037308317501666826535656468, 22321062669163854082511926357416302103773179538268454578572171632607382873693, 0],
  [23762365149222654375217391090056318998829316045255180157815164466428182274747, 11876596076018914933363889912762443449213405995285816246404623442455518133882, 28183696337699431241187375667934298612448565490549321709259628856081892393373, 22715963273470983461745169232293794423712926363838736117118328294650224978179, 6163780396020643029381878304732497894819067679960989044893971814453419229792, 2035566024872867291600431866237415499328454880859700876242995367907200902818, 18843304854730, 18922382880671678504283340854955660227819219853692917015068558327807788847361, 7581968180527472370542827520596953086802008183943790012211466874662052550514, 0],
  [23762365149222654375217391090056318998829316045255180157815164466428182274747, 11876596076018914933363889912762443449213405995285816246404623442455518133882, 20994841801290346020545229777830303285611182806563328358683842723521898861501, 9572581740838725878349249721246774188034357271322866929605199431183195829109, 5436481736156822932546851244402395599508616808737048241185175542147945382678, 27606640086583578229000630557507986850496956960089361971257858993067995298413, 37686609709460, 8200133285570542018372763890981139594387189416934623925774719166029104622374, 23507670921437637356596077063343961062192549613390180208581892741541601791009, 0],
  [23762365149222654375217391090056318998829316045255180157815164466428182274747, 11876596076018914933363889912762443449213405995285816246404623442455518133882, 13730955512494773566442612173713021041471653133816600888999012004555560161903, 24243525872588730479340122247660865473092539524880668057817935274654527975526, 9275258640450846810290623019892761112126210945528858835944890671054493145824, 3660531194555531632648617391051882935553613433638834058506322738028456175959, 75373219418921, 22297665749082173459247124407505125760731099716766232689659214099152689211782, 19815349337837939178323229359146334050186013654425490101760702346346455601852, 0],
  [23762365149222654375217391090056318998829316045255180157815164466428182274747, 11876596076018914933363889912762443449213405995285816246404623442455518133882, 10965689706928259004161952432702931494972381450229679310359344228120095170350, 24499122842025010677730947883417913352128258204825991338492225270815303608621, 20879374980558552040731530670442813872616427945777231317123533697462261560624, 23523032277622909103023277775701324760510216749568284454442769795183536464061, 150746438837842, 17835061311850567713585652339622216970788362397351495077175527479319010548452, 3760091147159676972703072058958067563105938378486635529713632296038613270503, 0],
  [23762365149222654375217391090056318998829316045255180157815164466428182274747, 11876596076018914933363889912762443449213405995285816246404623442455518133882, 18037560741728043103554261828162891374567556349305769437584131205657691089465, 5019195856861956781540057702906201738014832564250706909412151040878034885439, 9985495618696265485485738779945267154242491942439261076984508540452491762343, 13640082104307489196304514571424469515792295950238041906543695255076641709402, 301492877675685, 12820362991512873420003137263504173439570216837035260568847841737985588248010, 20720593893282340623753425164637456890160990756661846874748994713607091783175, 0],
  [23762365149222654375217391090056318998829316045255180157815164466428182274747, 11876596076018914933363889912762443449213405995285816246404623442455518133882, 14354290251535383043468852731803050294673488374729949901424147803792253454750, 9377788506803669198192346059055504910344381376902382292882831219009361471458, 17663073678755636649928676662505504003879314970456849298109534187217043237125, 10778790717925535657593375407796706573165343771334678397083779704929693494901, 602985755351370, 5982809765735969337784163292066079029168789097698849188153503894095538335142, 502990322935472301589487497467616762175519815429242289584963315861544205752, 0],
  [23762365149222654375217391090056318998829316045255180157815164466428182274747, 11876596076018914933363889912762443449213405995285816246404623442455518133882, 11877044160615339004325289902731788565323521142050239242474070555584893940878, 1042457429678530604201283724504301056690495040332078489057606857821839757705, 25124480086310763507310628050205983748479596375678579261941586529207840692001, 13996549042494334335550340681573098356046032744072657387595419796066466853521, 1205971510702741, 28037172500580556226201010844940897617822200624717073895554547823469311634019, 1455696944726222666632222803669965985195005213452714356084127790528397103337, 0],
  [23762365149222654375217391090056318998829316045255180157815164466428182274747, 11876596076018914933363889912762443449213405995285816246404623442455518133882, 3586479723330604786413767837841680829186710903884213721091649310985013839237, 27820857438313096232928854026035402376263635850117416672654766034419956020320, 17940887980833931264916319678337186476618133052886519023174120988010124028243, 2242520477713066463987041184767918909506816733457322356723972494654640686933, 2411943021405482, 5549036460866271288666108931069609728970537977457376695476696649104615730450, 5949894312504132908134284770531170813949399366936296261785487563433822397176, 0],
  [23762365149222654375217391090056318998829316045255180157815164466428182274747, 11876596076018914933363889912762443449213405995285816246404623442455518133882, 1748964666039711214712868065302161438684523331829049717060844496150375687022, 28010736047182111648780430504257412277502248694532248120570902233415093767691, 778278071595633487966043908878914108967370388216383914960759405358958664641, 28714574054194495304503979117612000923922805134940787863310303150192689227727, 4823886042810964, 6470073037808160526844331035930168292393861548691814160349881367221789071107, 28009766911080342380574011619578937296802059391077890806274760635144686941101, 0],
  [23762365149222654375217391090056318998829316045255180157815164466428182274747, 11876596076018914933363889912762443449213405995285816246404623442455518133882, 27542344505142881340660458202481190906556957148167680436102084484698706200550, 13563642351049651638736331015700061195553786126043236529600504148693166684338, 12302448787068100112583405763268517439600218009999454898314905988847517331466, 27565590719534302557760588279348854576633612514896585091496243570362234721899, 9647772085621928, 26464646059257964501582164019466174497168028039805421803484528511539330137770, 2690231469209961103675494896142805850578895970121372120181146061529044020624, 0],
  [23762365149222654375217391090056318998829316045255180157815164466428182274747, 11876596076018914933363889912762443449213405995285816246404623442455518133882, 15379724763295985471408850830176629806225458029927406667283200420645466866770, 28888985781356951681265327504009626944348499930679886374850874451216608257536, 3815602908139705818824750205628154976004636633419584777739005779088665841082, 22960175718370667572173710698243903813195992713072007520682846305734340171470, 19295544171243857, 27102457692764613204463505020032318445309389476442211932233125667388364285052, 4654483070173730465790613890273801860436607039353008919356411077492788209016, 0],
  [23762365149222654375217391090056318998829316045255180157815164466428182274747, 11876596076018914933363889912762443449213405995285816246404623442455518133882, 5243457090806113805614429944260209012108323532053726471763779689004019622081, 15731495785054057304712630791153547067477722935109370957183783964353639748971, 11454442838037971798111616371527600973120123749504517396697647728532460280047, 21442839070559049346629919897883658844925428281045446249465600628602825233889, 38591088342487715, 21916375739045489899635756897303925127919489669555374915674973247984858573680, 5060984526618572454297082090496860006218450947247272192921908494550041548249, 0],
  [23762365149222654375217391090056318998829316045255180157815164466428182274747, 11876596076018914933363889912762443449213405995285816246404623442455518133882, 24137346606893008465883596962725554214827415380929875604388415341302126086372, 12996945108400475736666578753414000749723512172064529147030999861462765496005, 2937592262335000013196685926103216570128752018003253947748183855930315107532, 19548144569389127624219906888946906924219879228025339691724481574426614584058, 77182176684975430, 26346637216423463970675272396359132899973533277774994255196413162472764032013, 22367390799497511418562849086766611019370019566717351707872073174189473470702, 0],
  [23762365149222654375217391090056318998829316045255180157815164466428182274747, 11876596076018914933363889912762443449213405995285816246404623442455518133882, 26233429936599424168999556046423954132580489073969904325528610113324980582347, 8373719987099144521118843419418556966156427330116163184017670656702029937734, 19964200044311348019374500345297335356962879339213378102098749691070994494087, 28627882990266462205533199026904400999963578986894991471166595370114286009529, 154364353369950861, 24731277122627654214650704635673875116594311219614404118539088666375847700669, 17604436057326127889026610202709317945571193673328903770087442353828021498045, 0],
  [23762365149222654375217391090056318998829316045255180157815164466428182274747, 11876596076018914933363889912762443449213405995285816246404623442455518133882, 3341515943335496212649206789071287742265822664622800150563628754982533980137, 3155313335055309674291376064371791801607724169841656110298502729194163831071, 5436833627097460435606650967990265906525034877127958218664520000409758481931, 28152057274215293098786348490336197665217467311998672259768826560704276725860, 308728706739901723, 23370441775791273728139547999098376935008122710672361918515446743815689882630, 25961725457464893075216650701738683553882129676969313903270317936313823263949, 0],
  [23762365149222654375217391090056318998829316045255180157815164466428182274747, 11876596076018914933363889912762443449213405995285816246404623442455518133882, 5760482481602272309652904551981019802253383365259982166578324873205212723565, 28860717443717223818836705283362038557815908453388605841728552659630466487151, 23473137946710839142872284965881361524191725729879062967229938016978451019633, 10655084135812445597512468265180085765282710563484127933170672944975098314292, 617457413479803447, 24296715100084319153746395258783884058566398468564472174005356224222950041084, 22333193112141643184387140420540247976363289220953117008915404604450443670992, 0],
  [23762365149222654375217391090056318998829316045255180157815164466428182274747, 11876596076018914933363889912762443449213405995285816246404623442455518133882, 18368369168252247889592242434648451136547172612434971099148927570725932699334, 12676536657972401480794771047387656206676725062020284852878037967359498882695, 21804121231685400959905757733894842447917414746651663629095062704672494106267, 13903333453660051811718718253891538479211350516346681139423200871664378520968, 1234914826959606894, 26654872263124499813252075836810969132938221776967885652597239881352432431342, 12986393932103355422503958879454552269444601505587519812727663550278356535421, 0],
  [23762365149222654375217391090056318998829316045255180157815164466428182274747, 11876596076018914933363889912762443449213405995285816246404623442455518133882, 17875244252375926351721641036577820683281544238950417510779323290263080249043, 24613576808310458797746630004602244842144227342842184936098775664544510080732, 21897684266885214030519391663923591095260589273283783280169113063692373647315, 12978895126592529959132049358149793369699146337498848498566749416507518272113, 2469829653919213789, 5549436381137998773427035089657318567066359611732635022811427378220275439374, 7321240927190349874789444266801749685053004084588285446639221708486649651824, 0],
  [23762365149222654375217391090056318998829316045255180157815164466428182274747, 11876596076018914933363889912762443449213405995285816246404623442455518133882, 1615844187815569554142816213061291178173408051950186274108364444645210159817, 18321434853113069252875965841682505248801376133950195291455899676004041566832, 18055700043916783525598446733339720683605802021669138783085924545754595336224, 10186156728653403582191700008303927612699494772530212770921386492568044559692, 4939659307838427579, 8837976573859211058433951878413462839152363622197587815017902051094231795600, 18091722100403801058836223311102778166333005418284086215377482197456861868167, 0],
  [23762365149222654375217391090056318998829316045255180157815164466428182274747, 11876596076018914933363889912762443449213405995285816246404623442455518133882, 17451621910725759754514867328613090361165809331981338679622508125303533175051, 19415834862921321723482503664178272209103461855665420359701840501829334972516, 13417684539185503995502916003078781483169836346492138846487833944580380975112, 23545158275789108340350575859916369629661816357204343860435811762949205478009, 9879318615676855158, 225244895350685698102107445509711896507009360374540264436068896806763918406, 6720141591319528927675027021119496558130209366531051969401688998686258844068, 0],
  [23762365149222654375217391090056318998829316045255180157815164466428182274747, 11876596076018914933363889912762443449213405995285816246404623442455518133882, 25065530845829387235549360597980487420781483449808412128597971976188150900182, 19651976067448679617776065694174501423000912201817807334070052347109067782567, 1955142880021605949142804499700101861936754247380729785563999710281539185207, 22748767132337797906281947259202872579333743773053175531796273546886497508437, 19758637231353710316, 11463086324843598483547822757318638477490674448482555013279698103837036109366, 20815546136728932571584134371506348471249000854569584765574598565300528094411, 0],
  [23762365149222654375217391090056318998829316045255180157815164466428182274747, 11876596076018914933363889912762443449213405995285816246404623442455518133882, 6302301539976294442575822414118462577921123002343671094873951981220011888845, 14834776997136301397820955925429948997502618829736360336437192142655764791070, 25724497278055990230339198733996942472968136896554922052786222589676945183853, 5696051087880400095910632223122453959811602685833371539900967553482123033994, 39517274462707420632, 26102681636702399889339857920739426471253670002595248252509917100333264832542, 5752546837613281431759104015121037680419012034831593039696283919459693789805, 0],
  [23762365149222654375217391090056318998829316045255180157815164466428182274747, 11876596076018914933363889912762443449213405995285816246404623442455518133882, 5621963276625794483813485375164257990568608291934782676724069047916824982, 16696935803899564221880209805740814152701902778488046337053600973544853805275, 7865977128415877850433217760318970510233647113100332497604180996588815533618, 14217991327207633482712548425002483903044817633411808746611339091816117955059, 79034548925414841265, 28776385776276989380970001276793440349656956991757019581075768478423039427373, 21110872072739990541525987994146327428870882665756948550835354404463262321789, 0],
  [23762365149222654375217391090056318998829316045255180157815164466428182274747, 11876596076018914933363889912762443449213405995285816246404623442455518133882, 18490979369506721738247175629321960791018540910606346950534054545146863827728, 7849752634542358979945057043360629765177316794843185948179251319331304322118, 13697960151416614215729608939112035033506797746870697039975111807367937430731, 11252223828024396505009443973603527602149106409639588068399611684865999969791, 158069097850829682531, 26454489872783744671694262111329169982979048641506794117707084382145721430820, 18645863390270159056048444560369028086378841261751112961298627591217326163351, 0],
  [23762365149222654375217391090056318998829316045255180157815164466428182274747, 11876596076018914933363889912762443449213405995285816246404623442455518133882, 9151097668089656702270628285723458695007504821043332975570744999588843189668, 16022286944872153337265065212674777503732911529294527614856069029424753940524, 11104690081541219415510695369493184801009439507012279552252905141684319132574, 3978797611658704340375057362852259356085741077075794052519735313286684834046, 316138195701659365062, 7110566248815221318047502217653861735912000389115655811651431884439452157979, 22368555812184912315723653334794903611761208272509444386446617469249663677910, 0],
  [23762365149222654375217391090056318998829316045255180157815164466428182274747, 11876596076018914933363889912762443449213405995285816246404623442455518133882, 3549308521247024231608334095685401800812208703079431857020071184852673596130, 17149576015157376703765011015161544367005844723945323469687769936783356389443, 16284533887891959713850118883703274345017717852327583808056730931379529039897, 16634159346554407588834390298542870022655198672705733281879349465872685345234, 632276391403318730124, 24327543384519314164886020311131624269004660739308810556569152711935354298512, 28245692364224987288030726968544135579379635578044091689791675735174590945457, 0],
  [23762365149222654375217391090056318998829316045255180157815164466428182274747, 11876596076018914933363889912762443449213405995285816246404623442455518133882, 18224462783950155272303588849124437674958823351615898129016616536251454458090, 4348514534580541617772756270480736689658947592547251965171521702560361200559, 430073674958674022854211371064234066497945922933568799016356548108604054171, 7020996675282100416335839643382534248372933896914360153602291209927086522860, 1264552782806637460248, 13811545388314739590619185048882380897155407962548084589956060050162827560827, 19958215957310553985112733556805290238982155736117649420676978213301490959505, 0],
  [23762365149222654375217391090056318998829316045255180157815164466428182274747, 11876596076018914933363889912762443449213405995285816246404623442455518133882, 23611276688790564492611599023404450821226521244586307147699476160785494555320, 28761896377143967213911972897818804905258832658729003433219804140715054273345, 16078108940151395953126816810149528652256727400347716989001461902869422569341, 1597934964073653714618897414829527247074252806175244932381928438507878296376, 2529105565613274920497, 18574382861941350233864621181492703951816702930538355466335469783232330401968, 9109749674931858319578474886655927619701663847706504368910228745944808299095, 0],
  [23762365149222654375217391090056318998829316045255180157815164466428182274747, 11876596076018914933363889912762443449213405995285816246404623442455518133882, 15835727270669584026998660101493173986665543937611560314182827564552158203050, 1233992418647475262936334966237576797972842438894030031818374727274575678622, 24693400507058819802387885260287756660782972946745622543880392973524539999352, 6130162071093291633566666813414899987921425487049963225165637418461518000719, 5058211131226549840994, 19573619797382685963116376271739108802190518281817660581946990357841589004090, 12020469615481454294891558347661397421512247377058817283930418233604445782570, 0],
  [23762365149222654375217391090056318998829316045255180157815164466428182274747, 11876596076018914933363889912762443449213405995285816246404623442455518133882, 20747721382095934304775092431375405699441297826683131163022691579368885273082, 20288346203198487176587421631896535149704267401316732571790542570418973705048, 25922603731732477706766824069775218764087591878951319080075377350002281783625, 13926848703683666275650434246066229208735735086959098804116262546467809337849, 10116422262453099681988, 8747096799299442138396750365222025864959483364363935142995879390032172337553, 14696429398477550752749157632445999466058752473114575085521104219265849054281, 0],
  [23762365149222654375217391090056318998829316045255180157815164466428182274747, 11876596076018914933363889912762443449213405995285816246404623442455518133882, 5573102309254876233070685295587422471026308226291590186433033700683885746832, 26422228239189324326523703232547316775591319386973046106051565014868163016918, 22662310895680386147050738793973391007297453654558485071894620826188708218383, 1742205581524258377549643569632558194036737073434749054024512965860266996107, 20232844524906199363976, 1832140023331687437208710240119606292024853556127054463281762437689960357001, 20118326260541295929191571570702540532571744949496361863725646978390303345341, 0],
  [23762365149222654375217391090056318998829316045255180157815164466428182274747, 11876596076018914933363889912762443449213405995285816246404623442455518133882, 22782388158298198192750376477658946286755942129752409804939054668715893046617, 8353672653234621028891632499313733125917682358670579048461773666759584296187, 24445520643125536662042960484234888022636403338505415393645070353867249821691, 11084196827427648502828117291601740394393902626181178951350366433289933029872, 40465689049812398727953, 25545249149116986227402453784262579953149589534730495666684720186515826617346, 6147913552529060450313460656780141509535516415130038160295606072925400288769, 0],
  [23762365149222654375217391090056318998829316045255180157815164466428182274747, 11876596076018914933363889912762443449213405995285816246404623442455518133882, 7651296396125984642376221944117657153636596849236511403702793947839558738864, 11022561515552825266514288414928613658200635644565840617072027416950410381160, 22360386267059543012961548069812415427389135916302103894934773732648775826977, 23316219718583154199425455376117179183860829586836355478709527722110017871320, 80931378099624797455907, 2880648475709043690602176898318623535755557010748271915395574095941099546848, 3785082291563529261295409494791215657228476749449781223859988920882133161410, 0],
  [23762365149222654375217391090056318998829316045255180157815164466428182274747, 11876596076018914933363889912762443449213405995285816246404623442455518133882, 19122834628331953609750905351976569883943605979991900783367443345450634252095, 7478428644354899520919895838253167553681469116408658662989541028375333057834, 21447602797564809265260935096093716473446138466289602547387088857963775567166, 22557143773215891599523715005677487646374598940572450532139153493169821057681, 161862756199249594911814, 3952698362050161253438832341089487304424159145881849012953918033157708680756, 13028645828195003300583007674258087251609012087014301781295371295521749925088, 0],
  [23762365149222654375217391090056318998829316045255180157815164466428182274747, 11876596076018914933363889912762443449213405995285816246404623442455518133882, 3902843073955287724268256863525915123936174634269885779194728484971245818690, 23429051695136476548049335519141036535036969357055315529353920120199138945930, 7991369021078574617446908301934753122926617937993037441960436675344772214274, 25455425051629236844900486101637579494766935325777819940367865523247403525700, 323725512398499189823629, 17561691407626373967144130144654883615444346788623330259499109055045341074529, 19759412817661729538326451349588247316270824342760911652164390335856706510365, 0],
  [23762365149222654375217391090056318998829316045255180157815164466428182274747, 11876596076018914933363889912762443449213405995285816246404623442455518133882, 14396273017749733047884720430226370255107960759287586440693114950293791902868, 2401125774654858416951181778971508568250346336140644941268915162136871493042, 16326014925099620597666801494833461510718820747646284102376265207086432773085, 15458261356603929697842318476123080887633001469953471299665802206698882520006, 647451024796998379647259, 18083439124554140788272206380727860496907457828973213148063889629512237993292, 18339974628944204838265617665947494353167174037007998008812831777533911286851, 0],
  [23762365149222654375217391090056318998829316045255180157815164466428182274747, 11876596076018914933363889912762443449213405995285816246404623442455518133882, 27413606253509290683872143961309034355346484989362606631058167331833506914927, 4258301094468962465245318088265061747250074608475562069771837911663374057863, 13636612382468362673042555435156826873108982873185066336492442019972839329545, 26215580496537401566870687551919645749551585306645027496137675119486568393679, 1294902049593996759294519, 22488995829841465837863934988781919008888245183589233531708155170394617277126, 1968335792346390440814059342818615389880271275843069469758816075867899639075, 0],
  [23762365149222654375217391090056318998829316045255180157815164466428182274747, 11876596076018914933363889912762443449213405995285816246404623442455518133882, 10439904175979532606534633664093351524249381648488042226654028765439185692660, 18463334380298402563118772839742296877781253182338045020055570401689301078744, 28249763966559932163936763744268508877216322298247571145732697604165872198582, 26131525129735332865577914267110275985638651773586096603484517763925797687361, 2589804099187993518589038, 18653639884102267153009518027086452623693360744764601538172605882455883009670, 952428515623215148718278541237902026729718856573675216303423107025666498082, 0],
  [23762365149222654375217391090056318998829316045255180157815164466428182274747, 11876596076018914933363889912762443449213405995285816246404623442455518133882, 25032483834803807387902870967423475074694746965041805769552197874585469928903, 13194391031800429850085739967624578328174587610133007484556615959228516202716, 21933862896975002022465733255374108946146594502737587687417700012966660492102, 16128148709266548387211822580032352496647574334671676982112129636547346442008, 5179608198375987037178077, 17856388487615590536340416375975082772425483443037808815704135633747029588494, 13974229392695703724970063695127613487192648497352060576976344829781844875448, 0],
  [23762365149222654375217391090056318998829316045255180157815164466428182274747, 11876596076018914933363889912762443449213405995285816246404623442455518133882, 13551852192671731480003426878240042538605952570708065205591637279517658549388, 13974113231428640606133639594655240977847373373900973330629754801759078566036, 2007435593851038589552863738946560408885357551151878642223734998360331519350, 5978955965336916581693779597549748741421413459179562226720795536580885865103, 10359216396751974074356154, 25358804321120631574288375457615761004403586059509222108796153920403183837468, 1515251167121272024620408782933036285426501948866904005157130171127540382866, 0],
  [23762365149222654375217391090056318998829316045255180157815164466428182274747, 11876596076018914933363889912762443449213405995285816246404623442455518133882, 28642910922602131982465899083390342420990848202460208184636458346660434475628, 14035514346245797233748399434578834361590791859575391550075554336176619551474, 14200892045898978065037253006592174879947437674493360884713262101477743223234, 14610423362365407025485027240433835547016178629614456844210858095154045116830, 20718432793503948148712309, 26547143859254166124932556011904632066382314327753156343099795491546234007769, 2551951610409841530515662071281004813217313090002421599055731267260759616531, 0],
  [23762365149222654375217391090056318998829316045255180157815164466428182274747, 11876596076018914933363889912762443449213405995285816246404623442455518133882, 11848991116895750076280334254625336827330609453775691840297996112641617897539, 8682262232556415160679944574059320661725269475137006623618166565702340358879, 17677564748701079090663773604502760237195907481605305453481891535011488400165, 12092780979991841162951277170012791394646792272980331416930107047535356330189, 41436865587007896297424619, 5294000395863286678393950119251761387618015530811713635368889057379747096832, 23098212349021312921454419877348336387808612478965754037653879202983363809548, 0],
  [23762365149222654375217391090056318998829316045255180157815164466428182274747, 11876596076018914933363889912762443449213405995285816246404623442455518133882, 9223291649500051732901467419854320974812549643170060072828396075550858186100, 19938852369262200028734345431727199225390979543424382048273794931044718952214, 8383469281771232661527166498093636078497741727541206228301688678904573354903, 1015259944060967677715445881820569648387906518559841196453505865144405552816, 82873731174015792594849238, 13782103377562895357472968621882204487971408790710510308550602714355137624976, 21419216730348001818498684570605767469418949574903387910221400101021522231795, 0],
  [23762365149222654375217391090056318998829316045255180157815164466428182274747, 11876596076018914933363889912762443449213405995285816246404623442455518133882, 3518354589145649626720111193647045721910681338865422096844739528683268896357, 16028884485754091996546741631186036460157806385943775177747035881349030061391, 10208756671382126511352388502698045029121405872057698819512760368023124112894, 8108424919255579874132428913008761017751884054222096411771567636188752653128, 165747462348031585189698476, 23313589656266850600302889682379145141253932337320911733902784005880105652683, 25806872453308845742961611390612387290281869206887155093437473757902130138617, 0],
  [23762365149222654375217391090056318998829316045255180157815164466428182274747, 11876596076018914933363889912762443449213405995285816246404623442455518133882, 26883487651519090131197973107264080337519281970884816482915234991372264662780, 23441759705143948381456052929642524598811627764485387246508366446600211559225, 27528065586174220383445137087322077077661379901269339083312964356403780234440, 21912347899469833762833084331544216240406397139563523352783374342383620945707, 331494924696063170379396953, 4068236541831819210137722320224433818303866314599843698248298800867473179482, 8804117891147161134328904451429711875977617325264250176373265355816857057318, 0],
  [23762365149222654375217391090056318998829316045255180157815164466428182274747, 11876596076018914933363889912762443449213405995285816246404623442455518133882, 5294989687981761839008984123844390136779164169193599242272641693372278667362, 1757329434162214701251532042674739427778002941554531054425042567817328648657, 9434316084483261202719496576951600954187218170451575151772332843524732265003, 16774076478563100550206619887861346656634178544875310874342422968204656643023, 662989849392126340758793906, 24948441590883532253898955455568971432082995027659705978340029067469412948917, 6288682792345795690990917182221311817592798254907056760269512240637139258842, 0],
  [23762365149222654375217391090056318998829316045255180157815164466428182274747, 11876596076018914933363889912762443449213405995285816246404623442455518133882, 19102456045807655594279704791872018554209004999101683788871921654949752863927, 9725154015420505916839492141310280240479920498428267585751577176740992292710, 28352995173841578451810320338853269986781229083909793065530406027374562890666, 19588464500099919272582868550196743159146335444633193774945204599226468109393, 1325979698784252681517587812, 22881275076483217866856167594992921702569829457514794949464782002167027055024, 22093794620097239883135133763664694567903640102020425189001952401004064997510, 0],
  [23762365149222654375217391090056318998829316045255180157815164466428182274747, 11876596076018914933363889912762443449213405995285816246404623442455518133882, 3158557259733257937981895551174374620168685184398292430578210521159363401477, 16929457340610937768967443440005299854685544699997173807902029004761281182533, 2977473943423020176053616442857991879595164108344533391153929394778033164936, 14983097900420504185045638537636372279041303405444042749235722507925069838093, 2651959397568505363035175624, 12659538551531679357439392945863500927750101917337102261564303195644772294630, 1384150331506937219665898900044080334557646558712817647491451846509089676603, 0],
  [23762365149222654375217391090056318998829316045255180157815164466428182274747, 11876596076018914933363889912762443449213405995285816246404623442455518133882, 24850963175574887961164020074526668304100972788320997114753893911296464437653, 28511974666027388003859389368678983866433360806557392544190134581594293772303, 19216441124036841520709748093353235649660601541116484768386565230953097120197, 7956733830263325612782330247256670286819411976943193789299209556243719971638, 5303918795137010726070351248, 23123132880011369414338117070982961828997302594851235096195133671274030851104, 10887616132071013640135147639083621137551079792607546643321020241741343350190, 0],
  [23762365149222654375217391090056318998829316045255180157815164466428182274747, 11876596076018914933363889912762443449213405995285816246404623442455518133882, 26319305457084533002992550056323494343320088935011130776236384106326709115531, 18944598712255835077035845281166015037831049147182478685794135066915456362432, 18959238433863678139656895959807655819333126022602681707518271496129161070383, 20763325708044463389931632325871549580488136567810965805899439507350726786885, 10607837590274021452140702497, 17971322622113736220225055345412707293401767067403390891397503421362356840255, 22477087623956320207400429552604106310136683450168249258564240875690796730961, 0],
  [23762365149222654375217391090056318998829316045255180157815164466428182274747, 11876596076018914933363889912762443449213405995285816246404623442455518133882, 26656257828357981430262792916100068215112950416225674830963118111930397990220, 5199161890070440271156986629385581415517485570766649705092153486375582211997, 13368264226919507089090510487892481327252062962990516713638585786102259173951, 26926071050122525522669562985813022713266347698617753147795797637550322160659, 21215675180548042904281404994, 24447739755826768204511975765099301767403526972239866390687591862723993935971, 22262415449277092597666343817233395020189135682231180743193198580056346693374, 0],
  [23762365149222654375217391090056318998829316045255180157815164466428182274747, 11876596076018914933363889912762443449213405995285816246404623442455518133882, 23310917809805721649693455539585702129113500598593522306110990815728402976588, 4761133866259253866398604233476380897682299096018324013135785604640302655801, 13122004297811847109897065511270844021152425369683162780338269648655980327499, 25130732099319309659774662500571775225323003536784084239886919162139944089776, 42431350361096085808562809988, 7379030233396820139168509546312543442561764743891598815204818437754114985595, 26044335230232817240496825635404858697904812702301836825669688769858861287517, 0],
  [23762365149222654375217391090056318998829316045255180157815164466428182274747, 11876596076018914933363889912762443449213405995285816246404623442455518133882, 14627850373205363567354400032284564742738721405278365792137162034083076484347, 9720207645692265397368987855431848087157074867183783293065479459295452222017, 11859645506034882997431451120606242947736992817559391844056645004482145314656, 18225394404084304514099757268402221435700390747662667310765030508179942333384, 84862700722192171617125619976, 26418758691808497716131089698552567849018953892835033500899491054163306310081, 13706329704246602985501074165805838055425322742189764876142141841470022353009, 0],
  [23762365149222654375217391090056318998829316045255180157815164466428182274747, 11876596076018914933363889912762443449213405995285816246404623442455518133882, 14843384651552367454932423925003256179524981439280878863950505733335333532032, 4468836743768349489696583123454003766660325024389866237626639491849486452244, 4434204196282258280495798183321883635964567892416516572440827677016896001219, 7514537894733492385786451918067084631448384736195974723061292491033524173971, 169725401444384343234251239952, 13529366550992516308567065939951698490599564624228821039369016410138187298299, 6244628562513475020334838144008979319294945296537074264549878005270043832957, 0],
  [23762365149222654375217391090056318998829316045255180157815164466428182274747, 11876596076018914933363889912762443449213405995285816246404623442455518133882, 22805645192608945264615418704343917440036405476322806555318680845270943866933, 8899266259759852705865554174463405014324884350528558573175953363868135881849, 24838820204362208774735781585624893333312897489034145902197469947030806755710, 8807832684225429911764822138424154602534047172255539209350399705531039172697, 339450802888768686468502479904, 20449274744554725676485970689598040998175509148023473400202763343582982394530, 21964853123024714160141885093407514691592100067451833265416810280398248815046, 0],
  [23762365149222654375217391090056318998829316045255180157815164466428182274747, 11876596076018914933363889912762443449213405995285816246404623442455518133882, 11694406698772107264847389330711890171125327966850167817872346376910760279510, 20611151407008005192146853546679254226457981912501125446836975276493256882006, 16243368871863141754079225918890358267514988391372623094629464806472444092175, 18226426299418705384659302530456218760231332403072235862846959664593114694654, 678901605777537372937004959808, 12814318691154404325455174989577351183307629104771324335220546396468043977322, 2115993056687496986809314339178056922220743744158385867654084980688100659002, 0],
  [23762365149222654375217391090056318998829316045255180157815164466428182274747, 11876596076018914933363889912762443449213405995285816246404623442455518133882, 7958248712369910824408434303610389506650106263309167253605349238611718465075, 19005334223636090345918069116612800484999148086399291248365216285267863451394, 14873443961032102464554404124277953945560272388687100655632674470403581882590, 17973694372884413504316141980068481981962779501153818321524862323630139056347, 1357803211555074745874009919616, 1085052420319138224392160259009343934283721745093992059876866888649243840548, 23090630763670040545212836129557287587195186865033444737802675351257872162148, 0],
  [23762365149222654375217391090056318998829316045255180157815164466428182274747, 11876596076018914933363889912762443449213405995285816246404623442455518133882, 16305611676025855370204315604995049700333870168656485291428874383538342135710, 11545688586217038026806946680793449935567935455347832663768798374387916782117, 11705163875711918239125451113317672182170551056041472240337479885685103799107, 25796300990111816310960420910651557843155091740372387186858444398289678545078, 2715606423110149491748019839232, 24446078214647664641519598751400602809010980560265371414311794915816428608707, 4628417440518519271421164532289344490850192082872035563986551884836107138885, 0],
  [23762365149222654375217391090056318998829316045255180157815164466428182274747, 11876596076018914933363889912762443449213405995285816246404623442455518133882, 26173085934768910914285520413952161075635122103428413695012333279893343970061, 19755181524757496714231046965129722867900267882380837313018297318841211561057, 22141011323461928694838853549348096467982748951566295692865685331709183136656, 19143542789497522537224206716773782813550340854168794231838522318590729035695, 5431212846220298983496039678464, 9358878660239719923122463143979842662416044380466353105539407868235384832631, 4474006658379675510663264100828795776395092803018279861987369525814207702602, 0],
  [23762365149222654375217391090056318998829316045255180157815164466428182274747, 11876596076018914933363889912762443449213405995285816246404623442455518133882, 12854155363447684629726302765358528217230325198063918095763680666330081668657, 10203626589293302068612569168020347619657956543753362529118510866948145499145, 27399525671750351639573145849937552030992227395628682292417691871651197822168, 9454626055985707405253436613919144148093786457090902862436450635580976500232, 10862425692440597966992079356928, 26444390561599504003052997772391434987896197309446119486589814787874647511218, 20111195184070169592425175056938526892898546679511733166666485193353593074062, 0],
  [23762365149222654375217391090056318998829316045255180157815164466428182274747, 11876596076018914933363889912762443449213405995285816246404623442455518133882, 1370781124061379138266940114568017236497509574024653266077625396302896385712, 102704648090209136192903376321790161419283555738342716099686545201014695419, 6451944524356096613794215098060865276367258203958590747553522950380751544476, 22541165287301522270603694184759406793312249339207560187568756472526003317554, 21724851384881195933984158713856, 8804578146512789271137314924098771493646453288936488338762209108864233187863, 10650812348865307876805228260496215950758219197098016502385462033898922605885, 0],
  [23762365149222654375217391090056318998829316045255180157815164466428182274747, 11876596076018914933363889912762443449213405995285816246404623442455518133882, 8914886398241765984409516450113138687014910363643171639726106349815447144921, 25381178230424835418294099803358189943987184753737371215527429835372634750680, 22029121031195393841954916320133400297781146165311903164833795994084936709258, 23083431335117274467634757083608104980641122646539141170722129511016762328590, 43449702769762391867968317427712, 18568299796322103017292744131998910254614137381072350851637414106379895298935, 18460485017671759486843659262301190588885973952667599380136666991471762978276, 0],
  [23762365149222654375217391090056318998829316045255180157815164466428182274747, 11876596076018914933363889912762443449213405995285816246404623442455518133882, 3578626492280369518433791051784096615059771030737221445705632274218264789894, 8579897557126718362184963234502749234573964295909040378648780042310249428406, 27867829398246765733454552062423641157264721094636331750676091955175366760909, 16498792029133789263011742549731134433031354023287693219535866823088008903040, 86899405539524783735936634855424, 18098601506730010262733408638483026961500013621041432302943978050325541833936, 929214637530334020978970998166876201564236148947385131016811854866737335036, 0],
  [23762365149222654375217391090056318998829316045255180157815164466428182274747, 11876596076018914933363889912762443449213405995285816246404623442455518133882, 6697200553790993841834789815470546594958322640676214093114328702718789110962, 555541596799093187679374278106237238192065253885450216153220043598798674920, 11803693131939647020772761482670008223556456470710786366577765115849750191802, 9946846986608926798184382824669027601026873223879380880056001033064778072833, 173798811079049567471873269710848, 23095085594042946545510352480459516700927187747747706548858601570139605366041, 8542702108262689592887285090712394808165639967914703823346058726256606428367, 0],
  [23762365149222654375217391090056318998829316045255180157815164466428182274747, 11876596076018914933363889912762443449213405995285816246404623442455518133882, 17614096899464357878526134036699606951567049798840046977362375482153667225768, 12104286773607598717901896669973214431205231809328259219593711780350210508336, 351120538464940733788863104925358833847662663348959928881035829525453295154, 10342230262488104480118314306398999307882406179883161120810261302618972326231, 347597622158099134943746539421696, 10658697702321214120787196291471480898618513527010224827183653239982403118836, 9886383388545645662781153303031384154531563747306049639415428916306151948427, 0],
  [23762365149222654375217391090056318998829316045255180157815164466428182274747, 11876596076018914933363889912762443449213405995285816246404623442455518133882, 4486122585411143334605118944861086279449734777143774641219977764981455948235, 9954841784361189419776827218346487667984994540554913182304617397208597372740, 14095583854119416634866165924443803794659642418584759863318077410104981712168, 1581956276099883346682806527759692754370003708938321205931820039833645433691, 695195244316198269887493078843392, 27400441004636706181786277116118656619293313304937783438905869559742717942705, 26982917956510602242596790188257772198737021804216420855473252564239449048626, 0],
  [23762365149222654375217391090056318998829316045255180157815164466428182274747, 11876596076018914933363889912762443449213405995285816246404623442455518133882, 18614814504359431612480131924269245598224310907205931629092453157706671131216, 9685028952173057168381061984740434031420650304800470189009589020942000303798, 25108064926843494091164615992731471362975383084422270192317173722239100057864, 24719756725487912996320304822798604546258011920624695720908280456407027272048, 1390390488632396539774986157686784, 27718536567253442133712971733658297950786481041001156625327454596556854781983, 1155431712440160899126280455933959584039078654726257357901292928401957809708, 0],
  [23762365149222654375217391090056318998829316045255180157815164466428182274747, 11876596076018914933363889912762443449213405995285816246404623442455518133882, 3547819870138341032861920472709116942568572831741821304037475634907369941537, 16601682150902000758041979167044338094912844840833107364293430286637434776176, 15634700208499831432225797876352028383307910117474282207335508367415768647063, 7645595177092971990213427127494163868961449966142442605272060348895087456923, 2780780977264793079549972315373568, 25769730414804126924907870436634717668208159177062282920310099907766009337817, 24966620412063966282355190636155774593807959209013605786833574994468980276719, 0],
  [23762365149222654375217391090056318998829316045255180157815164466428182274747, 11876596076018914933363889912762443449213405995285816246404623442455518133882, 15204558845957232280620667351314585462651793016448177286250917884794001796556, 15397703103219977820153755921397250898392953616204770529807705264559429436537, 9490193730928025772184731772576882778125906629614655533812440058158279634464, 25945068279721066620417700173034157633554123838800613618729370632682795489160, 5561561954529586159099944630747136, 13046259546445197256600417324064608703206460712985929871456322011381700496663, 15161848254201045930531340564121682698594765888034977507763283460159327662913, 0],
  [23762365149222654375217391090056318998829316045255180157815164466428182274747, 11876596076018914933363889912762443449213405995285816246404623442455518133882, 12183565927235805245563425572140930995046878505598350011380292403662353993504, 18681547777906240890898494265881931400500556752789526237169309360405285148522, 11576510550333028952526787413022909413361356582516418218097601633217579741550, 8353201968531364485182248653940173646710624133621795471533514962503078484157, 11123123909059172318199889261494272, 18757387787466302403905304632713077953613695114122409199840191217088279391796, 3254197907860418848519260762928763511495067920792487715690587886293890295622, 0],
  [23762365149222654375217391090056318998829316045255180157815164466428182274747, 11876596076018914933363889912762443449213405995285816246404623442455518133882, 28886488288530378380833928058230452758961769398236378187465461135322515648330, 1344964241199775189273763943047263052798672134620954277822302678301881344242, 18902981669164415442365981125039352329891911876415667111494426439485737780503, 18073225540513308616918462308078368663787242562730562048004973394639729658037, 22246247818118344636399778522988544, 21327707785833891410373992634884811378781322331270533678673794703514134315670, 2085095976022386890903999871463571337489372144821366009771578419156430674260, 0],
  [23762365149222654375217391090056318998829316045255180157815164466428182274747, 11876596076018914933363889912762443449213405995285816246404623442455518133882, 25830483879491426082916870808311754404985385025114998338441125838528319824934, 9262632062746143696463784636057341343831451993688202364495309766100949337216, 6760547565684171216015628275170643216673973810827487266870435999857973723261, 9564519041777659579594343598431988106015239337985222256949040071498707847157, 44492495636236689272799557045977088, 19882365298319533972854066014633016788461603375339833283182567249924278944442, 12753498095599532169285868054259177999201268448414589601051110200337200208330, 0],
  [23762365149222654375217391090056318998829316045255180157815164466428182274747, 11876596076018914933363889912762443449213405995285816246404623442455518133882, 25349511147261514616615751359224704341557139901788395652584497806936609624368, 13286193676115862612575115115417428761405769649626969090599296621368899285998, 19130975831266771111762901869847694863280206143716686680607436078631784243509, 14175910919556093389438014655903177821532435484120567692657324482250595662236, 88984991272473378545599114091954176, 21569363660470319442777591305270394697941357475581251605396654493919744787436, 24142753214238901341023208065003864214582400398275654069918514987751217466448, 0],
  [23762365149222654375217391090056318998829316045255180157815164466428182274747, 11876596076018914933363889912762443449213405995285816246404623442455518133882, 11571288681604767257357287230963403768350234796349537639706614662044318827036, 23857176684684192878667266813477143685438546178333133441063028285128467711200, 27022793886888924971564569716200081553540981399232170505123414935938822243702, 24646355826975990350291515678153401298942380739645225474497926086400119091063, 177969982544946757091198228183908352, 15210865899371854723615024393108237093936034775374520098795547803285192409721, 21867356061254156708272232605718635171539510096662831762459131964658574909844, 0],
  [23762365149222654375217391090056318998829316045255180157815164466428182274747, 11876596076018914933363889912762443449213405995285816246404623442455518133882, 26874868083102359713906539742562226447472710625042559177574776646608662010740, 3538112832945552104157227520599998108577357321014497885297681499812411871935, 1507504952269188493864647414979984289754942645741109721624786476680284906781, 2171390287297037917819004634511233924880921713771054954453231716395378021907, 355939965089893514182396456367816704, 26432735865689489469648969449007061719780172036275840300019055128460087157062, 16455794612416158255028004033235097300616695114075806353930025076528666359398, 0],
  [23762365149222654375217391090056318998829316045255180157815164466428182274747, 11876596076018914933363889912762443449213405995285816246404623442455518133882, 19996432394451445216621882557322997207996897853371400065637814126623263364608, 2780648137640508733480428411701148451438839818558286465163422911384882755616, 26414880493051272720541322709399947081106568563932335584865745639493578677602, 12920828328963042149148456762512858191325518508167892134577164730823554577326, 711879930179787028364792912735633408, 6128164763380856108389258062031692503986388280947279044645275201726504847294, 28182342142319109883677100463149698187187574499713153660696742951269016972871, 0],
  [23762365149222654375217391090056318998829316045255180157815164466428182274747, 11876596076018914933363889912762443449213405995285816246404623442455518133882, 65279830509278369039654495624290038087450623386133519811223368751982235652, 1660904628110140098197456675057761909324739454152303048611247527703786351504, 10972223215493380633495811696772087152040972304157208516437709643604289027923, 2005126904689366383471479750256846789758989979595497498554880709297156146672, 1423759860359574056729585825471266816, 26898900463903580061374166413059657269536927401613970078210457767459764473020, 18967298231674926196935118246373538455991461847092158159779128376004153921718, 0],
  [23762365149222654375217391090056318998829316045255180157815164466428182274747, 11876596076018914933363889912762443449213405995285816246404623442455518133882, 11430884556147943410531172919989847403673939746698829010608292637710732700342, 10173868292079593079174668513304965389921394204372412624760265579415839432356, 10337747657727128232028148259694522308789383948906489609656862825145684160141, 0, 2847519720719148113459171650942533632, 15831395492688776074272346607456195832939453444133927464174096237764169821264, 7704153213549177388528435443180665013856883574312959152896890397851067352958, 0],
  [0, 0, 0, 0, 0, 0, 0, 27870707211517198232529217799704867389288324376625506432203758116597597001681, 6504336017031388102855231221493170175230556856915894387952458458700940139313, 0],
  [28948022309329048855892746252171976963363056481941560715954676764349967630336, 28948022309329048855892746252171976963363056481941560715954676764349967630335, 27870707211517198232529217799704867389288324376625506432203758116597597001681, 6504336017031388102855231221493170175230556856915894387952458458700940139313, 24672617748234249865782588765908389636693299367819676238872198282933015301771, 6937241964230688069635708281496141428644464255328884405993281524339863032567, 28948022309329048855892746252171976963363056481941560715954676764349967630336, 24132603372181740417952112528805980779994420668597663977544228828547432135330, 0, 2847519720719148113459171650942533632],
  [27870707211517198232529217799704867389288324376625506432203758116597597001681, 6504336017031388102855231221493170175230556856915894387952458458700940139313, 23170411268712897453885712148539491064624230783308752442610032425547560186762, 7962688530296880550510348477455937646998826086978065019336390581261847231528, 23820583715632609576939257474600202503710866354776546796327775343434801935893, 22188197055784535784379962841114733699412015042314732876396851041919564748107, 24132603372181740417952112528805980779994420668597663977544228828547432135330, 2721279122093483389784435009408577751180120226767879059792291802318540058721, 0, 2],
  [28948022309329048855892746252171976963363056481941560715954676764349967630336, 28948022309329048855892746252171976963363056481941560715954676764349967630335, 26217786577332460183793079555047076976302355474923175859188289074084001648397, 21989413476479816125426103206157122816353189341002177113407773324484059072804, 109022261390459887845865882702028517946178583010842269525383059472104027539, 21387506591383613631299630503010607664847601823996114214830044609302743757046, 28948022309329048855892746252171976963363056481941560715954676764349967630336, 6534747984565556600963680589128960108742246665961632010512554892882246475801, 0, 5695039441438296226918343301885067264],
  [26217786577332460183793079555047076976302355474923175859188289074084001648397, 21989413476479816125426103206157122816353189341002177113407773324484059072804, 21173779914018071238363278212277248501599906879708335238624488369079653255592, 23090630227852348618142081962228104168107825955260584640735568452959321771643, 10634286871234996828229190657084597918357175918361658265558394874011427232458, 16960711760669013335086824582675271110049430299081501868232928327118297257431, 6534747984565556600963680589128960108742246665961632010512554892882246475801, 22307078545407309403867249146084937959846855688510058886071464695162903366887, 0, 2],
  [28948022309329048855892746252171976963363056481941560715954676764349967630336, 2, 5525687385675072235156371189282057080949058604556804517694387419161715322103, 10703306277162839747393519563122013086617762958676865422805750397650767495707, 14679090301306046830568477789126237451595206975258133712897634070788692487011, 23895636687464627617723101283650406788432557356767510657232747688488364198497, 28948022309329048855892746252171976963363056481941560715954676764349967630336, 8523850285194189424697311214595053512073805495436836350505583312039060291789, 0, 11390078882876592453836686603770134528],
  [5525687385675072235156371189282057080949058604556804517694387419161715322103, 10703306277162839747393519563122013086617762958676865422805750397650767495707, 5525687385675072235156371189282057080949058604556804517694387419161715322103, 18244716032166209108499226689049963876745293523264695293148926366699200134630, 14679090301306046830568477789126237451595206975258133712897634070788692487011, 0, 8523850285194189424697311214595053512073805495436836350505583312039060291789, 8523850285194189424697311214595053512073805495436836350505583312039060291789, 0, 2],
  [28948022309329048855892746252171976963363056481941560715954676764349967630336, 28948022309329048855892746252171976963363056481941560715954676764349967630335, 0, 0, 2, 1, 28948022309329048855892746252171976963363056481941560715954676764349967630336, 0, 0, 22780157765753184907673373207540269057],
  [28948022309329048855892746252171976963363056481941560715954676764349967630336, 2, 28948022309329048855892746252171976963363056481941560715954676764349967630336, 28948022309329048855892746252171976963363056481941560715954676764349967630335, 0, 0, 0, 0, 0, 45560315531506369815346746415080538114]]

/-- The region of the check of overflow. -/
def forgedOverflow : List (List Nat) := [[0, 0, 0, 0, 0, 0, 45560315531506369815346746415080538114, 0, 0, 0], [0, 0, 0, 0, 0, 0, 0, 1, 1, 0], [0, 0, 0, 0, 0, 0, 0, 0, 0, 0]]

/-- All cells. The base, (-1, 2), and the scalar are in region 4. -/
def contentOf (rows : List (List Nat)) (sums : List Nat) (over : List (List Nat)) (alpha : Fp) : Content Fp
  | 0, .advice c, r => (((rows.getD r.toNat []).getD c 0 : Nat) : Fp)
  | 1, .advice 6, 0 => ((sums.getD 0 0 : Nat) : Fp)
  | 2, .advice 9, r => ((sums.getD r.toNat 0 : Nat) : Fp)
  | 3, .advice c, r => (((over.getD r.toNat []).getD c 0 : Nat) : Fp)
  | 4, .advice 0, 0 => -1
  | 4, .advice 1, 0 => 2
  | 4, .advice 2, 0 => alpha
  | _, _, _ => 0

/-- The cells of the prover who uses another base; the scalar is 1. -/
def forged : Content Fp := contentOf forgedRows [1, 0, 0, 0, 0, 0, 0, 0, 0, 0, 0, 0, 0, 0] forgedOverflow 1

/-- The first region of an honest prover, for the scalar -1. -/
def honestRows : List (List Nat) := [
  [28948022309329048855892746252171976963363056481941560715954676764349967630336, 2, 28948022309329048855892746252171976963363056481941560715954676764349967630336, 2, 7237005577332262213973186563042994240840764120485390178988669191087491907585, 0, 28948022309329048855892746252171976963363056481941560715954676764349967630336, 28948022309329048855892746252171976963363056481941560715954676764349967630336, 21711016731996786641919559689128982722522292361456170536966007573262475722753, 0],
  [0, 0, 12664759760331458874453076485325239921471337210849432813230171084403110838275, 19449452489080454700052938888178047022259553573804486106032048451047634501628, 19449452489080454700052938888178047022259553573804486106032048451047634501628, 0, 21267647932558653966460912964485513216, 0, 726330293898197668733671798886975193219260434478442894068246836231001995820, 0],
  [28948022309329048855892746252171976963363056481941560715954676764349967630336, 2, 13231915864743223965721150501983549719935144549672699294877337323340240806291, 12664759760331458874453076485325239921471337210849432813230171084403110838275, 5459495435531355705278017933523662322037769424225820661342329389767757053088, 15636358916134026370937357792654243269718148687586847935163934273746150988111, 42535295865117307932921825928971026432, 16526453988717157847302503947634266274226088156068771047061110506348135999023, 11332862291910254211619472321990442798257427248430295814441742115932312607714, 1],
  [28948022309329048855892746252171976963363056481941560715954676764349967630336, 2, 10492767634487868189829690017874329749713143178427342132526823585145570801944, 23086803432884955728087073312209723542120506047735460087757239757681103736529, 3822196624466938824404676336205915715754338282968967488004889955966268944946, 22403553802031502141166609170006430981949419680039612093313982191915548256375, 85070591730234615865843651857942052864, 8877825322382339430994656121637067334525786405962159993777896562950365147987, 12054065840632000247710933635503831958615167582972094357558195689435165184063, 2],
  [28948022309329048855892746252171976963363056481941560715954676764349967630336, 2, 19223330619505368973248729114979328169653748547049333125274772356241170832269, 5793177352912282367229209468712475583714722259169534460134001538762434943865, 13111570619255236562134015266350165677415279909095261530561103206777862562982, 5021713111599281277350851362551790731556012515253781850099982027123679713877, 170141183460469231731687303715884105728, 19691528950206647472439957329751557536072370357988232659742166621329403067938, 17386301924675924000443713933244205419763834592055188652466551799096319568470, 4],
  [28948022309329048855892746252171976963363056481941560715954676764349967630336, 2, 7005696080951370523428347659553592695502750264953275785507168433448103164999, 2398400696367904069435632018600712919102306946218014449162359812411590584134, 23047001297226969203069166395897922595295872439755236445468127597134716594370, 11810645070564962989617057151215955621759507336108574229375610517114548146212, 340282366920938463463374607431768211457, 19787046555219280576292550163555015663390617229068232729989898472437356398565, 14017484904881966031175719716629165022095982399758192664562797814672242543002, 8],
  [28948022309329048855892746252171976963363056481941560715954676764349967630336, 2, 3478948429254521193631402756207093019512900912654355644881696083982719969029, 28507665152671784423586487114896702710105061927259746835765229923595011150683, 25761508157718267733004221081365816933897651235662467907168401711500908875819, 20721950640809011990952131536837666426665304315182606536079308169960995006931, 680564733841876926926749214863536422914, 19142947098413031861148040809357784786618271354210639523909607614057974955468, 1400492769353455027184356970695012454085674170928640246059290939365818897772, 16],
  [28948022309329048855892746252171976963363056481941560715954676764349967630336, 2, 1140400281791258459320838325863706059821879480392765261716160332847001990098, 16657811521126311964882902949395157808100468662515259227865598166514268107033, 21843795361144108068852518422862619687513001475934701405208294318484815614479, 26068839044302497064486078804215987948597297785955533601792774010589631428266, 1361129467683753853853498429727072845828, 491301336156151358138473220998278026715898898147273229494151413392468339434, 9113886252246248468286158721965327195527482928384777571644660031987565371802, 32],
  [28948022309329048855892746252171976963363056481941560715954676764349967630336, 2, 23939629260532647199343040902364092392879176395136559396428605571762306396866, 5863508798763709794663570448888511863215185482883946904835082206961649121286, 23894368488901590818435758858280584922319053446736418061278323741899379112310, 7764493053340400335492150814107237202665006224629814037285966054048452753499, 2722258935367507707706996859454145691656, 24355727234068922299826116621820056770898538308584643095272021731376991585590, 3883593644679323437964507211771545394077127740674932980029697635975000618432, 64],
  [28948022309329048855892746252171976963363056481941560715954676764349967630336, 2, 9152243955908703873175234120674149487281933940309757997801592899522181343391, 18455286496582817542410832454911339866356718701048161896034730974557686536241, 2656604582432833437509453270636968775053643234488324059527620237232464872582, 3830494788519053236560772302868732125488217010673301577092497233872597486153, 5444517870735015415413993718908291383313, 18856760264414554529539989939454339696306171475864738196687462266382087903619, 13117684108191723660626497350680946255378641787345084039949670518085011065525, 128],
  [28948022309329048855892746252171976963363056481941560715954676764349967630336, 2, 19939627954851832493237701367369739837887235597975762566907427645807297586460, 17750195469490717457782359456507244871338776360453014612653493990112394934164, 142029450891586640764385305913704128592475500223732018325433474438602824455, 7576698261209040414290381770428982756743973836445480192392086923551035635882, 10889035741470030830827987437816582766626, 19651854716579741389649691810163070618995506315640436826586158954821883091136, 26690286837218663745322104659465123763607646871330896237046689168061311487339, 256],
  [28948022309329048855892746252171976963363056481941560715954676764349967630336, 2, 28113867432494019319018340254470433577165156176202987795492929926301734897406, 27147982486217359146016781972228101551561563746111891406223804505921535781295, 2535600937201286159429575813691355078226296754986214332358841772046089052416, 26594054109027460553126459544049328698329764294926502146740625332011735387812, 21778071482940061661655974875633165533252, 27429338911069516992344609589649277895467278616692622001450843581000508002632, 6347377424268950125879633301408722253209338898863064381097514450766668415449, 512],
  [28948022309329048855892746252171976963363056481941560715954676764349967630336, 2, 20593853312087680535304992085871080817096848096582055205036169732801672451383, 21389282735638057387047454691864385798869608466084272276220551725718756004400, 22899244503752780943547117089081026189178236883161124504905443917816959531262, 1293806426916339682541270397294272626809215346538870651460745920634218922258, 43556142965880123323311949751266331066505, 23196850783866039118327821219554832091023180792918270763200827084627961754268, 13059208020889247629446350776456188916270169670319121845770233013338766894833, 1024],
  [28948022309329048855892746252171976963363056481941560715954676764349967630336, 2, 15406425835135945316814694537028801858288796091840684934873179003017066735480, 2099533244506095360724942840807587517182511235172528082891058355811260321939, 18764768276848895695208491094906984974564451780082830490230205533111710501580, 26203897877097593351229440300502042832997237895589334825363587298390690242382, 87112285931760246646623899502532662133010, 7250480252949795005848988917127757945069581846650956774313573057842879682718, 14859813999454484750255332457234481031549990882045218761020419302820662756038, 2048],
  [28948022309329048855892746252171976963363056481941560715954676764349967630336, 2, 7718098161763232686001810156610172329711038091526328395933481330193423447717, 12430058799427121815717118707921661942310178668777866798031828620567059552583, 6874541615737301066917644909049991140305931511996389476138191759115671092854, 12832325175861250838046565138781761428170104497446949102848127417448724307571, 174224571863520493293247799005065324266020, 10802711873507641340169750344451259452960547717370159748858297502504175738506, 9461800620262816509186844399547554031955797361701086699596185667480693616659, 4096],
  [28948022309329048855892746252171976963363056481941560715954676764349967630336, 2, 15197192515692353433031605846387593005772952459014653548572352718262571880783, 8618913622949708168984436999878616362629714659181840291482894558665490761386, 23444266144364420239565012881179809885024510389784838796669732830724635144788, 27664684603844847914688115074482589760512881396827981898454411578813465722917, 348449143727040986586495598010130648532040, 23696587832738669240079153123379188060912241466399030515982625423054381062185, 14264470549723852768285438222232544870557891706624823392910910959300352116686, 8192],
  [28948022309329048855892746252171976963363056481941560715954676764349967630336, 2, 1146119087001048479290915461784593400912003363294405094278080092595375418448, 25040039292316878383263901151942224676889145041261165901997793277839604433654, 20994592149878065126498815353842712814518503878033989186040103912128386988517, 13764659570019115421483762903585165524578209308902122736863748191116677716331, 696898287454081973172991196020261297064081, 22406898270748213469700108018301892311341254092630316519798408935736176293571, 11370430400889157306645499757099110338913741063428599794383640105455419791937, 16384],
  [28948022309329048855892746252171976963363056481941560715954676764349967630336, 2, 26869683765215491573233467796722929135807755878203455500207072694247290037025, 17179873996145582349510407042459531664872135609795066420211604978521238490688, 21851983713742972200557982594301591799859231664903708043670909539751670603577, 4386322327778315041449443120282447654931530091127194560762645535780255839207, 1393796574908163946345982392040522594128163, 11205370738390257888570405052894517055609665214372233844959192675623032058341, 2756991826478008078915327692366723699207867694916724572590706343070830176320, 32768],
  [28948022309329048855892746252171976963363056481941560715954676764349967630336, 2, 8521248207272795581536595794558868028680898498669167548451036758571508846928, 13448761121784653969483316539014107313055084682061480947516594800156700640390, 24492634392860628190750654546608436784177196469340619921741873212829034039288, 13706700732206065552552126682238895724947635375723389559194399110171353142885, 2787593149816327892691964784081045188256326, 1534172021240360927204362138916319372435395177041499349752623157780697091888, 5821797273506849588855306453000047729215135668975480400804670587880800286388, 65536],
  [28948022309329048855892746252171976963363056481941560715954676764349967630336, 2, 28223341137959316678816901431871581418021193921598850321234298005104610438824, 14175578860229572162161830861625876175917298632878701329332709537878756026861, 28347132182998712761732886592030815940061442710481281958750053122626374439846, 5651257880589893928405042559639519274467337819255614395969054506318732802822, 5575186299632655785383929568162090376512653, 5287132384872002061290389725702796801885393204477011802565189928702595119649, 25024774402829302986164083593383507315521135033256852452414999844601649663396, 131072],
  [28948022309329048855892746252171976963363056481941560715954676764349967630336, 2, 22241363282015654995903694282534689463283634525238972113082246484907318205473, 23586345900398357540104354277312475324134758425869158831794357782091202874368, 14906905894159282578171742139377069209667515027422034751218567540584645336263, 15321036593509269903859528339004587035333763477706379209861110494768574629567, 11150372599265311570767859136324180753025306, 2264323511377147412530399051443892165062236400793190615663697227374667073488, 27900343444696424210076179474478384415028443919981227888777061344258935877869, 262144],
  [28948022309329048855892746252171976963363056481941560715954676764349967630336, 2, 12576845258998096243048780704909010510592697003397089320974347612174557290027, 810996409349200111148742314633060106590212355124182185711852304889879080746, 7609010836584742208681546102803810983194563629143706527213397221686807844783, 2129584644877530476665026680775050338382173306433267901863149970862808647746, 22300745198530623141535718272648361506050612, 15170931789257804729374615037362540393120148441447377617450032989088820036102, 23325587470217872588971499886030243743770027223256736970283467350921206236601, 524288],
  [28948022309329048855892746252171976963363056481941560715954676764349967630336, 2, 8152592315969169971469298859849136506806748182311611188494329675900463854678, 19756071086370932733046819829949380913338259176501238180475172406226083238487, 16904788616466014812283813992988768190956812187934285936021150783721930020826, 693129835731788588792046197488084722470912967583689943269656167158533278210, 44601490397061246283071436545296723012101225, 15528256970598686646367434824644594573565766952048508572819890299423422911597, 3123938009301041350287197159821850541612815574974482349367137665344024103293, 1048576],
  [28948022309329048855892746252171976963363056481941560715954676764349967630336, 2, 12249925764081018275541368430248697676254031291879372226144788126653327277775, 28170869912336735592440929691035632956914966111405600154995916316882845243128, 25315186362657455261727679891429096117123602206462245659637838286556554945680, 6139074895954542813649115291969327410498320805758993244038008605444908646335, 89202980794122492566142873090593446024202451, 19746223521133938841366668758214217617552142868690025687480512988225635060154, 3118199145786059102029037673942086851879469443943054024453441657254298897635, 2097152],
  [28948022309329048855892746252171976963363056481941560715954676764349967630336, 2, 28018561294791218113020393390559246003352996522627796351742456425194077000389, 27234497988272434551488186413995134875140597905851176876157295894205750995874, 15578762232707140643035268003855035846799074652263377487631253960115528689797, 26847231401085513158189666730795894602041503141791579839981747132729923910864, 178405961588244985132285746181186892048404902, 9144226682564868483446617294782026292775791052186309624692461346321350469873, 1966333129734647014135562351243945123002736431376305776202553123927584575537, 4194304],
  [28948022309329048855892746252171976963363056481941560715954676764349967630336, 2, 26401040625195519775824569107940731825999749321274703153249004515295664569663, 18195166720259309811654969520280549706234744550561120771412343042357804279938, 17432224218788670856004144996589187832035600352869832626251943748363552725636, 1100943487458350296093985033093316805928141155711302619770555255143447339795, 356811923176489970264571492362373784096809804, 20061959817608924519811828917739073453410364806680840274263372791740571809224, 4837469728466178847175700782377058650303720138260500668393135172310068066815, 8388608],
  [28948022309329048855892746252171976963363056481941560715954676764349967630336, 2, 20345461866189916792446446959216214202609387327640134687029733098044882465929, 26292518962288483195144354504575727769552272687525858618958480433971063409612, 2221668156987485790001200955089385903660535900735373291177351500400797712737, 8037472346230555466097579474012118853967639633156066341863904621496325403071, 713623846352979940529142984724747568193619608, 3850049835872420214852512956545564248508410506772293336208104430444194515355, 25932561731147026782071407696385597439606433628636689190179122577352845106193, 16777216],
  [28948022309329048855892746252171976963363056481941560715954676764349967630336, 2, 2443447396296184454523517766346426228479362049700773744684071615145335700879, 11696246686767339945432438021222138831221487782192028964336085895309835221759, 26880032346047300631686459510906200833807428599672601955999761220139112511450, 12343096473174906649511799088662231178593027636843303063461850738912778743970, 1427247692705959881058285969449495136387239217, 11679237216298806963804606662595348058692302029378626221525870075613651791321, 3693177423005326056030494049119847617428989341827151106617750500801454906264, 33554432],
  [28948022309329048855892746252171976963363056481941560715954676764349967630336, 2, 23401420557344169324524666874317982774000719267140971257633371707937899424957, 27751559440242367443737543867486827155729881311625177342398332504819412403136, 22183848602275263155181629927963822424589334048667586601237373741439525478808, 16535082660437000097120467191885224445496973150534284804755919263248532468167, 2854495385411919762116571938898990272774478435, 16745148077086102963187881022044732370257823911319127551310692620483735285779, 14934015872861759351274127179995835501808848986291182924423041603942939698220, 67108864],
  [28948022309329048855892746252171976963363056481941560715954676764349967630336, 2, 22546640247435583560763725707381147623816974765430795875802895978768097207493, 12390157628350342243410425307662196261326655630210459320443502022412461466857, 12885708723237733860024762533879865950544796034691150998564582803786153148985, 23516631995526676430085575854731268972707007442150978652429977369247735192473, 5708990770823839524233143877797980545548956871, 677656089569315985252868294890677707604955258829660288644948032794266457148, 24599367875541509805227916368975233534595216430861705746922296255990693235344, 134217728],
  [28948022309329048855892746252171976963363056481941560715954676764349967630336, 2, 16659220221562374673263627159998054962797797844625721631991851523054116998411, 24467824689180703054867992971628728893798439288795745672986946086149384856802, 17335000265801844879703617574124678700518349312638610854312740396340118738888, 1175291789111489774924251791847082992644886291619040022647792070896742076168, 11417981541647679048466287755595961091097913743, 26034676861967097589014559437817322774883173786145463270949052346292668062178, 3847602146268445519525854092218303294763643045535003685192012763177905099473, 268435456],
  [28948022309329048855892746252171976963363056481941560715954676764349967630336, 2, 25821945002953480047539126764019350993414824137353519992495427617334374008034, 19087480041341940675634943900038289635134019742859142527577579510192604031286, 17059545086050800625070061289124216722595259928714542274747440284658222200608, 23464462185368669338297983808276805381818311959194063561353910888179170759953, 22835963083295358096932575511191922182195827487, 22567827723142021934575136548053410793795609980199264773994983473434796391261, 11081807804931850404643698604206677570752592320711284893197176433623076409893, 536870912],
  [28948022309329048855892746252171976963363056481941560715954676764349967630336, 2, 16199870325637609213490334132197400347624199480966663196668294591691736097192, 3100626183382267996457995775665651022303145827153396677190069209018195183918, 16272272552487900535048591340826744413322763419376553304863971736725699114341, 12655895070145260988806107685404476803065803358710653639153999970006900514908, 45671926166590716193865151022383844364391654975, 11790028573320522528148684940791112417268395981768715556217276754688660587994, 15645608110126630365483280487641439356131564090741992514127970189620841244948, 1073741824],
  [28948022309329048855892746252171976963363056481941560715954676764349967630336, 2, 16582595834204710713076055717555891851676685985800336757464073597966800753487, 6705565054231828952036101317318866911838953718017606252817668902689552171752, 27948074048842326350260835220465450268295497212739136435809622998957504791219, 6357026966711861668159463580642054966378085246742432098736306474145096702112, 91343852333181432387730302044767688728783309950, 13756069301273076601417301089736671339202137579112190034678172021641015232984, 17864121558513663620122436095597952113214382395962038225020573344335071097058, 2147483648],
  [28948022309329048855892746252171976963363056481941560715954676764349967630336, 2, 11671062305469314123828707561184540477051092515757554454419046442174596967421, 19730731292018576210087954177007169749189879793903090772493040593847685502582, 27563938100979370480776977538966371351432082268263448520541662585472737302005, 8029564754917728473880849321200882277987344992342129152662683920079932092587, 182687704666362864775460604089535377457566619900, 26342106067589225070741933236410442325648017423412474354589454014544495306720, 16530308868324104513825036200320565039002546446734782971848268379382089262870, 4294967296],
  [28948022309329048855892746252171976963363056481941560715954676764349967630336, 2, 16000284311389256409920536616048645127788013958306248770005283457837211331523, 28697970109604065512539560084852389521288075621714530597043112876499134946400, 14805800529240818773311036761715040393582254200896157942117959350035831888580, 23650811953718284030935438404384012586418357385657831189197097355226446912272, 365375409332725729550921208179070754915133239800, 4280199383298210744672104070079525691146966248997186204346377145725022813622, 10341173913433611651586156448960949470735492632898750979787204149053567399874, 8589934592],
  [28948022309329048855892746252171976963363056481941560715954676764349967630336, 2, 21770303087955067185267642308126010221434315542963713313671016687240769793364, 3346144984357544379314482346681418846664475984833356227997845220510043653325, 7954204771405380336014094659363654606436328316804959928142542251374515954360, 7808789203516135803986820818238772866564191913946738476538828642603053175521, 730750818665451459101842416358141509830266479600, 2717703397634036811428798263359693425528019369269886491055691536683112917226, 727766678659274682189852484232157937843814736051896902074964984236527458328, 17179869184],
  [28948022309329048855892746252171976963363056481941560715954676764349967630336, 2, 16723170527037022157167228933460169115315381247125975318257980744734674968235, 6119511620710620807111258203020757810969667328643701982345119877479823285111, 2360809899145668244406120378235257788239228107419475959568879425082115545568, 2439597457956935330092532889022255601278911660730535232272913493342745685112, 1461501637330902918203684832716283019660532959200, 21428811787966048038893452108624448356169967654983147170606693496823452080070, 23569695642121815559049293761083453288303842954226849180438203757843421828110, 34359738368],
  [28948022309329048855892746252171976963363056481941560715954676764349967630336, 2, 26640568639221419570290141546930790394689229056420541147800070038653933267843, 13807562319038273538343453341725136372013424859005038249727991334300262276625, 1252648017559749379004941062052714429476799034163091961086799106682361645423, 22860401750564381976540212822711235671927960159089676167073956817514965037539, 2923003274661805836407369665432566039321065918400, 3865271163263321589992452611086461293280402206778806582274249976183622350496, 28422754739876606466352672548641705647161122774180754415182831643042847976093, 68719476736],
  [28948022309329048855892746252171976963363056481941560715954676764349967630336, 2, 14680128960020289568159654211139161436311725858743181630301448039404857993595, 14186509211310603270760752230253357468007561202865148764009480667511026054111, 10961954465581866796362816833966753168066296794045080092745115949035285872843, 26226752163448972308176833868370111741931617066712866850517188376094788133736, 5846006549323611672814739330865132078642131836801, 14646941043285829839546647635411707749422293092633924715515503271682036297070, 14796400936473595574687907883486086667031293309333753890135954208352121560231, 137438953472],
  [28948022309329048855892746252171976963363056481941560715954676764349967630336, 2, 9046381964942921688266423741354548828754637299309638381382482135590931298318, 10477924483561148443512700393372845475462794297407970141597214092759839498076, 17766103882873600583223150259836957373934222375243088827681593851929106487726, 22822350011696728216562118718591518251032345612187688305205710647802970166020, 11692013098647223345629478661730264157284263673602, 7082632354679826423913211453100216922574986967138045787472153280909557148026, 20064000651748735581397106857072769047301142020271809134736825564162527834980, 274877906944],
  [28948022309329048855892746252171976963363056481941560715954676764349967630336, 2, 13644424368674063205930884895596364824605161304229499968661276357005821582525, 9042963330222382593340143582465288889352595045259514350518313330355827682915, 21835051609469528394209412955647249529702134575402111210541514514587341630638, 4812132540485355151076033868557683828048344085200107104678849109817632384107, 23384026197294446691258957323460528314568527347204, 13220873801236764411734476728645966070508689035236924049736022605415950467729, 20192869717343311413043441046048457367770588084002110741291104825566369719727, 549755813888],
  [28948022309329048855892746252171976963363056481941560715954676764349967630336, 2, 25336416085609493315313582537876619844342818418142338843137835144661830204887, 4060478964432647359074701032141487446006900783117709366131177367344678065430, 8582867250085670260874357743422006280591229509247096981923931352466913180322, 10059702672553185683302867043402120485015182447216758307697089756555634420881, 46768052394588893382517914646921056629137054694409, 6224814199698442835070789071560998804439918547956121591565621317139194116603, 765460844375871020054561275995206605698342028344890686201209947064328436809, 1099511627776],
  [28948022309329048855892746252171976963363056481941560715954676764349967630336, 2, 21500889947929430768149188050820810455508245367662001804901575843462032840493, 11035389178839354903249200515985069453107510409936161398114383537385189256415, 16699660601443962837985547474653123408040391906762117279794052540411191212975, 7727214039288755906340203113812258090118173357714159850069027976599174291705, 93536104789177786765035829293842113258274109388818, 25614225397415228161187346445822083579685560971675468046579605805003401351234, 28911923580902590674378899691154149399834490419451755923732811196604131277087, 2199023255552],
  [28948022309329048855892746252171976963363056481941560715954676764349967630336, 2, 1463172085253718938677258591862044569404157615536031568381365883092118172586, 26242335591562883485305238851179910600311143412942431293469818097478481423410, 10393358469279023488179603094423954969353069363046967609762879013013549891110, 6740454068655264859210086426039195375034672170597716177512705376493417186736, 187072209578355573530071658587684226516548218777637, 109762814993509967778590662729467108849215664479945981404240786215582341283, 13471447347073274464737288468703062162216550300956533304735842749950069930891, 4398046511104],
  [28948022309329048855892746252171976963363056481941560715954676764349967630336, 2, 4087327547606492938845184256857905877894875863198958433240591765685963901933, 25928360344124220919450209160058895679518191726916636491453606097092855673821, 1956435549578335022676678257442796008057597583580034022188319891664653872138, 14576758473383701099479381818420432208192623203349461188856711129052319168226, 374144419156711147060143317175368453033096437555275, 772582904061999250684774999941557511972092334809071430887344067712976333675, 18938310222358770142041368712285121620490767422728040926537341312704577451764, 8796093022208],
  [28948022309329048855892746252171976963363056481941560715954676764349967630336, 2, 9471885896125074144998963966988391072843199160025002007499165866115053135786, 12103238073046526798883404194923730683779654802435701609985234446456261339168, 23633954601491049658779980582614661122655926933343243513370398929278079987076, 15755656648202769550026201486725902532210048236858741287574381956466128433074, 748288838313422294120286634350736906066192875110551, 19039174966575796396920587342385937249754339177502616004411418205758878029372, 28377639189520100038897444565646560473411738247881833596552379262933000848682, 17592186044416],
  [28948022309329048855892746252171976963363056481941560715954676764349967630336, 2, 24224718613807163742440133532448240321978845106009377919011911465319863544218, 10935929895318832823372999076218188494631178732666010132464394362601004653590, 7149032317566897517004330832521163459117647742786288751492121589257479483539, 22984811426782489991626980783998893934560204475601038785003604555717773316612, 1496577676626844588240573268701473812132385750221102, 24784874162173071301393272480933509539113540334847001489369365529930518700865, 1431997394326623370830149820049521742983756506823844455331593713541087051593, 35184372088832],
  [28948022309329048855892746252171976963363056481941560715954676764349967630336, 2, 7524238272739143023657678655695461988840163837043552880138815981933480245164, 4449493403808141109600875976290991790758496064770570067025378529240024474275, 24862373143734646105543969290851763319148077213512125708634258861703255485275, 11260155966714039303677371397944212593457518416074073723635282246232493342416, 2993155353253689176481146537402947624264771500442204, 20146555345928585459303987524225027278547946970045348063895627355289779799030, 13448512668031625628834573669760912979289129711488343960128973768701516801982, 70368744177664],
  [28948022309329048855892746252171976963363056481941560715954676764349967630336, 2, 27631313403924958646607117724054208189268316697222935904140770696617921837675, 12049474878955005038436153601251212854456994679609237155655249853593864724391, 26368306245769218289370371488741617999156568154534338043360111483419516330418, 22659091972375077303422910530045692703974917199064713034205241347833049477671, 5986310706507378352962293074805895248529543000884408, 6521846361256422400239680621753586109482920681898322985597438154817987106861, 9425470268812484053504112967331602963142254055923570298779267374745068152669, 140737488355328],
  [28948022309329048855892746252171976963363056481941560715954676764349967630336, 2, 24884896101117826304998455878982754483653143029382857498486644452376292089309, 22774069765737441300289882540809037161160952986815549169715002097783759425426, 24541617405163620784997924572914606974444923763240983354374994496986516935036, 1463693460752194204656473113930477910582249168619214682072346376195209620045, 11972621413014756705924586149611790497059086001768816, 5308072982230016565512505238251926740267337966459932499689003742809858239491, 12730026429824303033686152040637833855431472647939917332687115739822924078630, 281474976710656],
  [28948022309329048855892746252171976963363056481941560715954676764349967630336, 2, 20072721307170656331321521852076494702550021231035516850926167714443064641587, 23380231276204539543817149670248634688951884449750544096454670190947428048823, 12827553065460034413236389470228121801396260055334780749980718096576031654536, 13384048238963048418649023333404393061353091257261666807327856339584881116143, 23945242826029513411849172299223580994118172003537633, 12036337405620624757877377770976195266960347229141261450415323980689315188765, 16575132359798075285146641860873265839674160697679383891171370382614005557036, 562949953421312],
  [28948022309329048855892746252171976963363056481941560715954676764349967630336, 2, 2351475241425535657218925563934261654510653140994939574386811625967774212909, 3449920136761366076932716516919964418946436832823099128372159063145462844734, 19687793401985744717384518510164442277364281782655133146985453377086111764928, 23266570927988071448571332365541297782879760836237213621437973745297243346147, 47890485652059026823698344598447161988236344007075267, 701209809495138705083672814480846895298958250631389348148868046172555184207, 3381433905892693677834188353970162716187788240436248716684871080035379535415, 1125899906842624],
  [28948022309329048855892746252171976963363056481941560715954676764349967630336, 2, 26756630960454215024300489498183979784729323147145802928170561667354295228517, 523672087875034243343941230162559519385101300343693827153545312583653927447, 16838066201394993529498486486374098170103719337961617916014848111697420125457, 26368055579208983309452568141355139755959975295195925899037748770692180232814, 95780971304118053647396689196894323976472688014150534, 15709957592087263742262020791172064229514969457095377515314696116594522439066, 2225277021708853750391999400515278881984307588594525588904283114818070174930, 2251799813685248],
  [28948022309329048855892746252171976963363056481941560715954676764349967630336, 2, 23922817710554373467249165298357671033767658396785030933481477600519600310575, 24720743596590784189854429657731479990845114244431800914976329201675610463931, 3928971256698117987644644258440410652215407156928426391677386962949523498034, 9397533008898490400113599128425689732058852691733637082139495937965856996340, 191561942608236107294793378393788647952945376028301069, 20883352475322126129497922641891269632552622019902289944403940733784959466073, 3508568472378035646870956688808626122915744848273193009015106000644972613896, 4503599627370496],
  [28948022309329048855892746252171976963363056481941560715954676764349967630336, 2, 9332064500334981630830584686155331250288566353454973139821473467092818627852, 9832365137883659376263414808327761428280694119328318373865502323740540513956, 25415987845265274405235672016294831753527181297337252684016393638150836791459, 1279883515537399709385784411684606719261994291593070576420704802359539788458, 383123885216472214589586756787577295905890752056602138, 27894572710691985157782123228232235148792814090728839846352575989593918130545, 15411226141006665506034138581026966355984525233282682982014576159290551891331, 9007199254740992],
  [28948022309329048855892746252171976963363056481941560715954676764349967630336, 2, 5115129903113680481641106772728217833813155958714887731056037493542163882331, 16040399782555602836502717879879941158201691400631371556168970913953688683169, 15231060206441056189001432717837638757759491965098227174718457135807915602018, 1366525737464218107909022865327163599160735965267484597258056920896999680912, 766247770432944429179173513575154591811781504113204276, 16896614097758937734212778695942299466359697919873900122887602629492146071534, 17535351020610450181255388276354508927455693202139476698441560088010835486830, 18014398509481984],
  [28948022309329048855892746252171976963363056481941560715954676764349967630336, 2, 2363851900213173228978385533517665298581953364985289052158528373326566590179, 17513520375609541624535698576179115349146769700275410348602469304410703300428, 21424359647431856442344777101925303357609324558472880478169737210938549749789, 26236612494641342626156719559281674271525890416511059003669596554620792210099, 1532495540865888858358347027150309183623563008226408552, 403632480141059171271626266594162006588696934874417379767788442809701531545, 7842265771121294426708909127034888469124954615151093403838106033499377567500, 36028797018963968],
  [28948022309329048855892746252171976963363056481941560715954676764349967630336, 2, 1706322272964126779272742950128145649655429405974017429715302418208478620370, 16333434511762703696773234623591229827046809774049407665529076615537087210355, 3943391472953556646077174037072158450284637912577878427021321400360141928017, 26223683991401022739849668416596822781146072314525310281312900959596594369497, 3064991081731777716716694054300618367247126016452817104, 28404328874744843491267648566980844770889527115266003761112359524122534962205, 4130902700032109190254448310943147061827732431739216833860405247481982449179, 72057594037927936],
  [28948022309329048855892746252171976963363056481941560715954676764349967630336, 2, 4525110118978307989102662875577966492366052213047717412988968783366454349549, 13385063677722096176562765616127946481610329022288396365602624886738571748509, 17052737666609636165571672201489462912237085784871767561307000433870524302186, 20435886189298255952410209725728764325164942324551015266119414600059436193832, 6129982163463555433433388108601236734494252032905634209, 660420179833357710327409537518026546694149340873431038519192731361989553374, 16300258358331160261156420646577051063856085469842883541359596171923136546474, 144115188075855872],
  [28948022309329048855892746252171976963363056481941560715954676764349967630336, 2, 9348606767685512679254615184230659557425496648454384804293280516034225906737, 22436617552387576617170529231186318228610546039756509471991004343951860975141, 18971452797408513133224597815427501983536313701991601073566391097829980368423, 5922878933081319382461508582334898403824496291773889677093535144253656505231, 12259964326927110866866776217202473468988504065811268419, 12771464237395627828448369493063505809425517332638199057300661597601716420649, 8512116294384741991837449644769530171637582099511375916813677361002961069919, 288230376151711744],
  [28948022309329048855892746252171976963363056481941560715954676764349967630336, 2, 10352193471934704272633688508609880672890326882159656091418682708371902164375, 11066078139395547885643484587207584212800131823933328013823540672789711621962, 18862377626334127077183691548550915715642967227799442823763954178638598472454, 1891921206288728678212436671399520276465375206274986779434220479084164138220, 24519928653854221733733552434404946937977008131622536839, 4677655991469705009105328748086901576512276768958356278783453757918842670820, 15962597573469037125379196819492785345222173502834701002381400291466610215792, 576460752303423488],
  [28948022309329048855892746252171976963363056481941560715954676764349967630336, 2, 423290303793880431730397270076022022097615924373307591191759726997438772704, 7774290215035904505855584972928874076186866887556946260729566223281470981117, 5541200178475868994989569436312191250375498989388960524742727397182787426616, 20720205470446779626827660104912737651685514572277618006642303049134265984078, 49039857307708443467467104868809893875954016263245073679, 23945700819030761017790294919965179399479525779721466248727010690436803321566, 8487400711448906423342869678643501398701219266518222542858852541294302414954, 1152921504606846976],
  [28948022309329048855892746252171976963363056481941560715954676764349967630336, 2, 4937218576032499948427020800138081790398965585113064907041245381506010915490, 17649086203159560674806946924021145449737699728489455054019630844448474909655, 15898643263349963327737719740373067955485564128203708840709311310244825678487, 8050291048248072689643743356845703578803735041809634021696446374751860446123, 98079714615416886934934209737619787751908032526490147359, 17002000069494252707848335153991699991418764808728577980982439538710493820671, 4015848301343844902216800912658118842314353990466123807101517934419253525922, 2305843009213693952],
  [28948022309329048855892746252171976963363056481941560715954676764349967630336, 2, 27314992617349699079399082495075760550879929190727389055295990227318562121881, 23858113203017190611310567364918561041805658129072899764706309854326681124598, 16740551386298627644627381441288129759988472848243534207092836119193439384158, 4669382739816937063662568650114396218173053480013900270010921194088534546767, 196159429230833773869868419475239575503816065052980294719, 12509696063714518650202016451795801197209939837351566494167565076227753085445, 13363866330331292830932232613455088415152904225130246584934299359104970679199, 4611686018427387904],
  [28948022309329048855892746252171976963363056481941560715954676764349967630336, 2, 1618827618107448359176556580747124454144781271418644679129617528109536677807, 18552908435576760806236962438489108599931258914639098291412631384981715274331, 21812173291009054053460857442640268118366024308249614476832410020808413151840, 5239515378927833864871850218096069532163328194734321582121768762382775476916, 392318858461667547739736838950479151007632130105960589438, 340847443110431796367864021710558788132145099424808012079420737202135021421, 13266506025020833078317141915521074225990423967294813504378968547602244885267, 9223372036854775808],
  [28948022309329048855892746252171976963363056481941560715954676764349967630336, 2, 26315300432266754278972650958902535154580425434805278817444676529651158277952, 24386644013752637040631785744022363819320546255983595628240336059957837198899, 11457394000730171265967601139727977979060830431215237067000501759503188012079, 2664112788959854213756034675444421234253653979756614658602806016367085710661, 784637716923335095479473677900958302015264260211921178876, 25711205534866273848452716462790689021835344285937757988428702593053066493248, 13123028932200329449188322149859690883159157864761241127677511584021473132274, 18446744073709551616],
  [28948022309329048855892746252171976963363056481941560715954676764349967630336, 2, 27360782736069369785483678986181348171534436213538895408200880832261702875112, 3674713600800042660175541749658097967528163531897038195693376769301694646980, 6226411907871627548345929543938927160495623816222321733563289998859595723410, 22483369876916603658632896215270189544452705303890171858747025317532396728298, 1569275433846670190958947355801916604030528520423842357753, 4563165098532355086726851282669089377452185045521379958624499848467679624945, 20989975233251046503437448980536630078240813480987583341756401796452478338933, 36893488147419103232],
  [28948022309329048855892746252171976963363056481941560715954676764349967630336, 2, 3634500154711074031233321979438178831844168620592238436913899345417074567110, 5181915719178466476430999746559887494379818018010221644785881626422975893951, 7612377343410670296351591895229253957653284665698973036547634985386522896811, 23122610393244806213654723321605771727499212853438061762354423034242086719273, 3138550867693340381917894711603833208061057040847684715506, 19321210756895207985314564165870803761018256111510077774946499358810739964944, 1687527087231800907044545063409561398630554669920674256788893806739885206048, 73786976294838206464],
  [28948022309329048855892746252171976963363056481941560715954676764349967630336, 2, 14603224627210401608129885773451101433494434723856596802216748677370308225385, 16763486071161276193445918601881612209906418006654263381360071685962669884413, 26645700515807370755551911535583206308147539092497165102584432185881698757519, 13092879085351236990549374832518809840754004938600835819154376675714212442813, 6277101735386680763835789423207666416122114081695369431012, 5127214960936156230585577777816028575062974519475548117317524335132975171662, 21803236641128489589341979313321596146372682082408347553693950162932100929230, 147573952589676412928],
  [28948022309329048855892746252171976963363056481941560715954676764349967630336, 2, 4430316173149127875595344770401941070099464851737226103380168316922556735054, 18294933139535214047890717498936981424545155121704758083219667849309241966231, 14425666236323357539395094857059940702070009846040912766270303973069157330068, 5552095037298215733529962647241548353955531480538089210904938107743422442366, 12554203470773361527671578846415332832244228163390738862025, 20716343919021729163967295841106066962731023143949099742233899513127097697157, 1494551611251074411545787473458774233143685557547531907190796966626945305265, 295147905179352825856],
  [28948022309329048855892746252171976963363056481941560715954676764349967630336, 2, 25040653357923690930080674513119273279607976097662668355005970051940362658963, 27657645670402119714230642761755245501054185201235110409552826467266606248255, 22608180395528774612962751256217948554667652018862618577363845241568311829217, 10755667397660385339776128006347958108257457155944856669074386445549344057660, 25108406941546723055343157692830665664488456326781477724050, 24662789019503433795701296116279876003507157413529317094254819633940868111374, 7598716987649587102008621228006220817981921478286921032305784708402409215913, 590295810358705651712],
  [28948022309329048855892746252171976963363056481941560715954676764349967630336, 2, 5081181626218373471385198037175052963859960779456707633672253776805928174747, 20287708124340458183121164148144717039587142034707906620277060978837385821980, 26359050424337011544024976339947143782291163308369572439471790772420081395939, 17334710128607164183629245374826586965064593156334249161943791609536238871767, 50216813883093446110686315385661331328976912653562955448100, 19295864657881086576877988682086428949815874339004873166004514866129650102514, 16804094428585857381884259414098343603466817137567419059786047602690183375127, 1180591620717411303424],
  [28948022309329048855892746252171976963363056481941560715954676764349967630336, 2, 6421299588059961282709824585186976929986630577407311289244716877091568626274, 13115058200118114982701891124665134347311210851549885314541421056139317232526, 12449409467037761121038738348924119325680746461451258317827944602845007223798, 3383706485663775272847845686158509367367526159574302899022933102904144894694, 100433627766186892221372630771322662657953825307125910896201, 23343315706170172617047621555877364491236089297383592263221517602059356616215, 21274314436171026495780442990196196700431203773342005895559987307637566041309, 2361183241434822606848],
  [28948022309329048855892746252171976963363056481941560715954676764349967630336, 2, 3278078081316382373754001754522578268481654073018614717346226002991790265694, 4305574751514237896433916535349400025670367550695541166283445086343416677022, 10645104834458253775948595211333216368009634808431082096707442800863895269124, 2250815647409287774075360419419428071646134683623844062847695876545156267279, 200867255532373784442745261542645325315907650614251821792402, 12946670442993810557133045863822031503133427313992627421510554550960914148075, 16828050729203567153886717151299454942008222031669315618970734560130240553620, 4722366482869645213696],
  [28948022309329048855892746252171976963363056481941560715954676764349967630336, 2, 8500648246102350272856425712986424617779720441167718312079091808719301085533, 22898894221487313805933570240299264327649406498804869294424230485037561811806, 14960044117856415125063395888628089030687854923525368158432727804372128959475, 12406589833140114871838751228617538257189078012363234359165212386779919474824, 401734511064747568885490523085290650631815301228503643584805, 25202227849826843188859571169241156515782812043742667779398640615655698091288, 9478090598100098962834000906602317226392450749292250503602158065172875734941, 9444732965739290427392],
  [28948022309329048855892746252171976963363056481941560715954676764349967630336, 2, 20708532675991948798939743364598096480152927497949732148858993929663226984053, 8158401002445179607682483208187899721439352170954380998182455321138793099548, 13665462373712543901365742607730852772032357635216626788277600042503930963095, 19878519998719258343179943132145160253897917115207619291225107922454005994202, 803469022129495137770981046170581301263630602457007287169610, 2147618467158405310816008462661565553612860953673553146544847349064879917716, 9744961198914763296924455249655935171263640456957165716796667308926818199142, 18889465931478580854784],
  [28948022309329048855892746252171976963363056481941560715954676764349967630336, 2, 16088045780547036016309898361359487955197410084209400262465222426862894935868, 12438768887229221419962833334430994081263175647878526810405834957210731767532, 13590416543806012255119834231177840616979805287059403454142885375748794038461, 5588261747538339279635267859007772435874670558809786611666863091661599807480, 1606938044258990275541962092341162602527261204914014574339221, 13583427761846656193772161437094092443923234048283984945663982922234550546503, 15698514662930322652952789098548574725053955231416699884890716309203627332180, 37778931862957161709568],
  [28948022309329048855892746252171976963363056481941560715954676764349967630336, 2, 5862128107781074322767372185707074483379346573149540863711302084507735542831, 15854115271422455646091434353627388940626204725491953996776169962595174188958, 6725582315350578800606346589920781008678894884901470199010377033046046739099, 26618911438741273577483960711243764797359473549482451609377724487106258082900, 3213876088517980551083924184682325205054522409828029148678443, 23326691606710888838985144223035513531385796350686347491244281076129262385252, 9783311726167129500910995470900569779055742074086329525037796872597281927893, 75557863725914323419136],
  [28948022309329048855892746252171976963363056481941560715954676764349967630336, 2, 21265324459883504453338106588519553062605275662937187649085156454429733052223, 13962844694119892500768212012180134486461483688150193132424009424932462001303, 3533422741690644332557771911995759530652898715249685285089135331022733017369, 1929757878363097841308635776283814621255500207054349790921086461014818659573, 6427752177035961102167848369364650410109044819656058297356887, 1237683979992803949723501863345624773680937921842772034247665170153368130037, 11370915643853276878667723835327297835474157876720147377058908230650072208314, 151115727451828646838272],
  [28948022309329048855892746252171976963363056481941560715954676764349967630336, 2, 15993341389783123769421402414802649259414512851218436639291302123314004020525, 23490462353080494068212183665562628581302826848798132316952533244789213568092, 9987169146308587094875479906032760457002773921966738665973669974701180807010, 1891614821760450730458971640028227257242393645372080304814325606447750801834, 12855504354071922204335696738729300820218089639312116594713774, 20390990426957792975520000693976381140818165219978363352595793990064968296853, 14682475307562936815509860896509158658218042854238152514836405566500402270423, 302231454903657293676544],
  [28948022309329048855892746252171976963363056481941560715954676764349967630336, 2, 5711909680268785286225767949148351977068085185958057541081632336724277350977, 6049716087098038364365538673628050706155631050148119951717730213031745441258, 23396852885507652619750126703321608478777471590058213601854333113249054278080, 8316753296230391122126983980369145389104766325707187736460220188365894777280, 25711008708143844408671393477458601640436179278624233189427549, 6126427697463583192398091655829662320541148471761811694046924910098434744452, 857271246446509389389169218410744057772531880223580003281034349261065295491, 604462909807314587353088],
  [28948022309329048855892746252171976963363056481941560715954676764349967630336, 2, 26876430758570540622823845081064986544610409666074505836678253923742428474907, 28556480253729520322742638395301470663490929332410220491508173305533609954646, 13600904909346792506423145116472978081542850028985858198811304209572283896505, 6161584144507265737216998953590038821498629220763965859289124112830073063515, 51422017416287688817342786954917203280872358557248466378855098, 22332570499124453407037236634160269901793189862788609129276610287513700944523, 18734989586682321601018405051008259393285144779802541265527267983247133962615, 1208925819614629174706176],
  [28948022309329048855892746252171976963363056481941560715954676764349967630336, 2, 3411271408546397670849613036850881283057959400928367963068803171200467604622, 23718873199459543867187179817528395880660239585567556061195199097525688612858, 24541379536679568213853862722771733068249301594349595062812926601247827822586, 4147002017232048986251905177528586361915671922229819144329235863362927803674, 102844034832575377634685573909834406561744717114496932757710196, 17838596741099847121102661217865279865020409517380873828551778952349130895900, 28277834035320775634195541113424017745403382243190868496763632631826092558006, 2417851639229258349412352],
  [28948022309329048855892746252171976963363056481941560715954676764349967630336, 2, 8511554161723892981359999254473325349186806129954650068929733496819703055934, 22299938379410667399528957102821046221787132286364535761740606127969896836659, 8594809295409261451583785241437447763600080696524281409462966638867051258269, 16463782271698316755222084721605269810533496350845657657566389822229177264940, 205688069665150755269371147819668813123489434228993865515420392, 18387132849123699155466832483851238909406287010547239441066244141455307580345, 16988658938869949524797213608244000754889896168609321312168416039662500504600, 4835703278458516698824704],
  [28948022309329048855892746252171976963363056481941560715954676764349967630336, 2, 19446491674109893261240007935748581115206454150664119087399087897179848880622, 5866621680334854873325875299660843427099241025624126655583171678302684198175, 4633556284974055998839942171193095759599411161487297037459259923830532067407, 7253754893486510778848038883926968180616301810118434080717530615135726474399, 411376139330301510538742295639337626246978868457987731030840784, 18592633660589168714776165743058681348988404648717598842892654970229904465923, 22174487254832355857927992518418512976215303985748204100997075026638268275889, 9671406556917033397649408],
  [28948022309329048855892746252171976963363056481941560715954676764349967630336, 2, 21016213882589433685391031120797472027800797658396766905753987701770696146442, 6011555534057049501841941895618100844108199279760359534333756869488618318543, 8570973189294337212439402272988459253463386883736256832221902156073135203095, 23676596773192117730403523126209010390332221502571142558260101404571242749069, 822752278660603021077484591278675252493957736915975462061681568, 9543501144256113331228179117954940765310465821937878859266239798908159710447, 5176030768266103146126190379701376716402152081100448141396277537707274351478, 19342813113834066795298816],
  [28948022309329048855892746252171976963363056481941560715954676764349967630336, 2, 22374762764186501735522740896396957654511956236413602837109467784771228116458, 2630082911413434661863197890972495701754461252915686456016936781320746796409, 17633468892639305926137476887610282803702775602155122447003510190015823282638, 22067697822445081309193331909953740762681709331245644963877203224811163398499, 1645504557321206042154969182557350504987915473831950924123363137, 4202247987105486233165740222763680354071261711663395440950644372379417366186, 23505774252497830877037979356764117996176191801620546981589626677731757132998, 38685626227668133590597632],
  [28948022309329048855892746252171976963363056481941560715954676764349967630336, 2, 25484257558754530523800624447955689074113260795932755210078241161024710249052, 18915994767902408324176613823516557525975751326983389052508596560959942235091, 14618327404858942847116530590652403189490785197571539929409656024463463134952, 6311215049629353223086219959956157069602457906132156838606008454972979686948, 3291009114642412084309938365114701009975830947663901848246726275, 11531884799839444982803422687145509884812287421744900419284928098352524537837, 6068774932736806637230680017382584778932093640263643895672796612107095047393, 77371252455336267181195264],
  [28948022309329048855892746252171976963363056481941560715954676764349967630336, 2, 18911087827548179608831801117565615934495422950083025227099313228757519444662, 5449835748782389496365423734785580099186716539973823426639914127092024088649, 20636999140815975913079153731903892199739662422011167168654763162519460737638, 2047883259633185511480136360107844418291312005140361770363750070987561405148, 6582018229284824168619876730229402019951661895327803696493452551, 18201753200677932787439517541006090738815998190255402904227500084069567200525, 16982479293508094180979512532193063927937003342439798973423394904784533957490, 154742504910672534362390528],
  [28948022309329048855892746252171976963363056481941560715954676764349967630336, 2, 8451011836231083649626818527204907872669537903439904619130640717712825544348, 17298484651044721339514371297913059773074219490082867169867781319489045714132, 6324243654007455073879542002225983888290948872722678429828491062525614117043, 28238148875021964201676178135908084238462293283007275714793367635272573795961, 13164036458569648337239753460458804039903323790655607392986905102, 8938375237707884349230457504698098663919520262483786247575620799604859404031, 9682517487927566182753668579096002145103113210023981743063253988098045863038, 309485009821345068724781056],
  [28948022309329048855892746252171976963363056481941560715954676764349967630336, 2, 3138366977766466355784792994721456287050522092268411055231340529625883044272, 21827410573659093874682643037874244627976300861248401521379193982234853431775, 20195648462072028136790859690231744442323479215686337747661716087086627041786, 13254801076128945630157755675961493258920259851138824324171156697095037817127, 26328072917139296674479506920917608079806647581311214785973810204, 12870367041780375918167975200538483681836345198436205343526858923724137916408, 22026066807618016602157830197121032630766803394457920465427347318926689243794, 618970019642690137449562112],
  [28948022309329048855892746252171976963363056481941560715954676764349967630336, 2, 11074382411039530613147290526048001544102039473134637192271037954382586359314, 122029961124978298336396322269669414374706623185925504669725521904038284618, 20802936229338649587664110458700644485967939687830173696807252670947333713499, 9405195533792991713298098647797875450692039551404127240407185379439178542376, 52656145834278593348959013841835216159613295162622429571947620408, 14153266364020314311904698141784403587625829280461325009386802227310295959533, 27316063528762025675795539166639986732591769480666115865984948697475736810992, 1237940039285380274899124224],
  [28948022309329048855892746252171976963363056481941560715954676764349967630336, 2, 19940494750224999116735012409124369816494488279340780144547760348759432993457, 21679403143036767336106459895724468924177448538985856969700940165906391167466, 11395094031936731973528706694110951471826589287421293731881007458088799482882, 15377668356861878177954332578544103508487720003699041899006740692078470777577, 105312291668557186697918027683670432319226590325244859143895240816, 16926459219846951230383453199059032403494846405023072663746976008941925635347, 37702240075053818540177831741674765558215661354761027227810457702794897111, 2475880078570760549798248448],
  [28948022309329048855892746252171976963363056481941560715954676764349967630336, 2, 3543566584057140366997038329381928572215471727860334250849015316636045710347, 8993111452795334532178298102927493303944871015251275199269519041250430705087, 11123274377901851732426377389373011267744853303738847350526555978185883769741, 26368953659609306250495982727232130272176662506681289142481763855052399147887, 210624583337114373395836055367340864638453180650489718287790481632, 23637662303290334119514814151543027014456045433978946614922982942533198046821, 25584698308659179872436943874454047544847003599580260660987903525262215337250, 4951760157141521099596496896],
  [28948022309329048855892746252171976963363056481941560715954676764349967630336, 2, 15266114264411335611642030851442877906652330842946304594803181857858922329305, 7536375944508519319355986138690224345010537919065913615409823948379432667097, 9325594826451749759942995755938184354964833101936682724779327264488159541839, 13913507613000939830151995532869816671805544877275947641145470997268803878464, 421249166674228746791672110734681729276906361300979436575580963264, 23567042750636821669071684654034809309392924564534347853296216087568115158759, 22744566057304341793063896361042942016925282887508198261786293602135785320970, 9903520314283042199192993792],
  [28948022309329048855892746252171976963363056481941560715954676764349967630336, 2, 26186018424441041429268207392749673224022378231717733504660647754635758920342, 19476579193978531986838118661813648554175481551077524814747600324068161599655, 27315801043744811884562698676883462823584188592928100017861475389813028558311, 15769796520460439503506514826579428144232198685091090058554788602702780975124, 842498333348457493583344221469363458553812722601958873151161926529, 14634415899619164189506837322690937273914946172799963113432026178041833474649, 1995483568372785166347164789365071452861693080328227125269776322481386385606, 19807040628566084398385987584],
  [28948022309329048855892746252171976963363056481941560715954676764349967630336, 2, 2612368055206226533071669445517310112817240148330339710726663240049716299609, 5250136930672847342638428721250137277880408638233087539362246000569501033224, 23225468616486213822540646354371549043777627732581054244920469911525216804094, 8552838505122469772056346249826471064051875797782978758790120628014837795376, 1684996666696914987166688442938726917107625445203917746302323853059, 13825132811504681623219310107727764280067073424941244041828884864703342377173, 7911898731116476546796367353399235378184492247408636877853161734131340323256, 39614081257132168796771975168],
  [28948022309329048855892746252171976963363056481941560715954676764349967630336, 2, 13275790365345535140683650193487961251584539185039978583474446250639326005569, 14818126013873403548298191572024874014592284870534618546961935772242848568845, 23994739248019893664893553360594839123161484205652185958836134859172612748975, 16308562062515762106479480343283393731157831687800596463641771434041498517862, 3369993333393829974333376885877453834215250890407835492604647706119, 9916993692340571765938704611470612081343683424570254905545685492813402344489, 23938348016794906381728080206361521165298024404176845716145842389275032512953, 79228162514264337593543950336],
  [28948022309329048855892746252171976963363056481941560715954676764349967630336, 2, 497093456360732110733093073926983303640855010028952700028592988623661265800, 15158495925833424890924911111309179718226080651815660632094101039849940611352, 23815813980393492840053468441644551158991292340580343732421729568120362705585, 18932531428820298802338391072843089646962491183396076014928162003154566740814, 6739986666787659948666753771754907668430501780815670985209295412238, 15803774660817487240557945568964336143610964307815340220957802903986631491878, 24961391998937739452806031974253703232836016923977886817373977907529125705651, 158456325028528675187087900672],
  [28948022309329048855892746252171976963363056481941560715954676764349967630336, 2, 7605079455412823202174513271086995193206605284672249991252952190653331638284, 28440741617887950378757092767732064989553767380200971968241391301102181098501, 17567319326805017916630212008430905524010086553510280659180929004615679134240, 3824873108690262278907155764784927838068364341251066993790867639016742104412, 13479973333575319897333507543509815336861003561631341970418590824476, 5684763004644468741056363201802621040911879134605969358760851110672818655851, 2612876750347693540061772004375256833038717193303729424762619546462275881514, 316912650057057350374175801344],
  [28948022309329048855892746252171976963363056481941560715954676764349967630336, 2, 26712191488059071019229696470603296852711325913998563860050660919004591698696, 4011548478272215582386963384363427604369940260602778004520548960434057889350, 26974735873348929717762823117882654041250549027449012455884505838004636364813, 15156375512142881678350288761917281451601596152165669721375713960953268025837, 26959946667150639794667015087019630673722007123262683940837181648952, 14624952418606432507056296577339014788372569278885061431111131039212857280232, 25839986852543621908509207887442225320996051036784077969591056270320117706661, 633825300114114700748351602688],
  [28948022309329048855892746252171976963363056481941560715954676764349967630336, 2, 1817194684637690907899392552580030528876420861503946127755243719147724425928, 10112406100425799159514207108162227348611432733729179663036708876615096773647, 13700447437266133131658581389193916915537738464111984005826042559349917407908, 15997464263027364075824496864983176668430931549137129381768346108166553228139, 53919893334301279589334030174039261347444014246525367881674363297904, 28338249475488203360144669026279759719025865866645638258592158527882321120978, 17064176086519950537184666397218504756412201850063477722481748638653818555487, 1267650600228229401496703205376],
  [28948022309329048855892746252171976963363056481941560715954676764349967630336, 2, 4326488568607665125273385486655268308020340407671697957319643331322369307003, 6359427137100987615386640991206064868568391460281898375913231716141299706405, 6056367850566072867635302770601900657258280298380723672345937732438587092387, 11388973781058444648914987915604098243188698857815626368471048765909069259741, 107839786668602559178668060348078522694888028493050735763348726595808, 27216965451788043745253664947310412249623632502803640419561262278902891604926, 19531503462032967596539641502609249680023236878232625329000705120444274427092, 2535301200456458802993406410752],
  [28948022309329048855892746252171976963363056481941560715954676764349967630336, 2, 26197995674405576820968980625563704029044278752465251732984865319681933333475, 26923227125958122652512872693933790168411194445568588528175850433574284339294, 22845071888191426849054473432197952982214266700473038446177675273995864163873, 24374732228619164268132740119234178385845915388523479295284167295885180177387, 215679573337205118357336120696157045389776056986101471526697453191616, 17335117102169907247713924457063675406897540063109389149276740294630585669519, 1748641364932605575932418572217146781959076790423948504996824872352113550453, 5070602400912917605986812821504],
  [28948022309329048855892746252171976963363056481941560715954676764349967630336, 2, 24749499932311108468419626152286202873893920969514132146380301682208983243051, 4894975314036145825483563218376592235768661378043117639748639827558138476595, 18700578396757109788072581612531705812823648939073582113571081913524305091584, 751671161699204050121317065631819499000375802316829617043923146652802702476, 431359146674410236714672241392314090779552113972202943053394906383232, 10677949683052123384407232325004411903695759234831685178677793084947378878288, 19728574843243783291441804284331765868442704397775136258943673712071062691144, 10141204801825835211973625643008],
  [28948022309329048855892746252171976963363056481941560715954676764349967630336, 2, 12177617046062068068310968443859451264445902032954883643238507328525293764276, 23414010026820120084721478741215337602074635805830940250167973231459791999337, 3219308003151106258003037022795318968120474167936956186207426603115711411609, 22984167428620757021506690769737418773810202201122308678895393155271589101772, 862718293348820473429344482784628181559104227944405886106789812766464, 14645843282678538627823865982149792280307329889110814395292640154853615642928, 8850150535943421877372635674962618282451717115787208274596692818994587538535, 20282409603651670423947251286016],
  [28948022309329048855892746252171976963363056481941560715954676764349967630336, 2, 10909963028585657322989333608846495287718145407061143575679298032948262173158, 27419915230336062666528234157231219150430379352424483830768498780005223137624, 16398187309310798677580779766471634089421867283307442893588991781566939594134, 21173725556600823940255000832576630564606756040035153771663788399084369633645, 1725436586697640946858688965569256363118208455888811772213579625532928, 11132171524771562828198237958258349967392494894052919954161962747124336717390, 7411989245944326680234697170173192949429407808310559602701374922029478821998, 40564819207303340847894502572032],
  [28948022309329048855892746252171976963363056481941560715954676764349967630336, 2, 19073994052293112055264516831114991791934266028198360396529537667638882423491, 14272195298213979751484719817184331957214770069420524585510539489323882694079, 2004232837363953591570054448765907433104817425386997122383874453664997410812, 24264776768102835840166187868956673731004370637181587790551293434968293330958, 3450873173395281893717377931138512726236416911777623544427159251065856, 8526200726469306895089815078267153627038585476882937462060612643372248542364, 26432209527367950099887665600021791304482793282378188031368274144382150904563, 81129638414606681695789005144064],
  [28948022309329048855892746252171976963363056481941560715954676764349967630336, 2, 12311636428516019542168693389975496623864552710634534698229721260273446318886, 28888723472790570080038106641618175534948289528515676141705662355039357738036, 19493419723193765925264847656670002873856916722853385911159951713019280990309, 6426393766865895214871185890729224234844754268209575619950528603825889214525, 6901746346790563787434755862277025452472833823555247088854318502131712, 4634028209248088038901810478941440693182876919921718170480814786790506840350, 20326392394075443131155190011564241466473670287044152403337067047647256665653, 162259276829213363391578010288128],
  [28948022309329048855892746252171976963363056481941560715954676764349967630336, 2, 19480733564861254776292595392568838137007533917686152382580771528591556017157, 26975501183682978063245965919655423580200031370101455818981373596554357703966, 21787924604756028890925574888838618404802382162315711688914233487906606481229, 12848750706038692307285741125882237636821340983062297386156558978843449007654, 13803492693581127574869511724554050904945667647110494177708637004263424, 16698459296828871915206688549785081632106889884435513350885794803278490301166, 11297048090811554390579460101097866677124265832962350513090999080413354967786, 324518553658426726783156020576256],
  [28948022309329048855892746252171976963363056481941560715954676764349967630336, 2, 14247755402001070751126904347983540814197834832588746120984635177536348415834, 3151608082801980508285534960800332984573304221845156194103608550246351781780, 12426936714495786684366861793848908922054791776234641066460505667280505861080, 24167044354750246468877834613297512783565102447239862406007706741284481957302, 27606985387162255149739023449108101809891335294220988355417274008526848, 8870401306680168465313805816034824806138779268389220405123144748698935960370, 24167743112778017935658569937831881333326421552405754867747190498387702706041, 649037107316853453566312041152512],
  [28948022309329048855892746252171976963363056481941560715954676764349967630336, 2, 26157691110248579841925178012286368762767148291932351901789038703965315699476, 24582824631496949723306836427226346960304255294319896391494473089272286722969, 28114469103208249825129682256513409141399304360608956181762498394329115135158, 9153821893562364662270049292740330630889313702953542759223012542152915091242, 55213970774324510299478046898216203619782670588441976710834548017053696, 4941223528271945468871657397695632243711992318637696186797113879349409940575, 26389304561039416299974531077718047628551164816057192851352339666036728743486, 1298074214633706907132624082305024],
  [28948022309329048855892746252171976963363056481941560715954676764349967630336, 2, 17836186454856867810245449140574978257715399522593914688127368184691666583132, 7472247316974541609897609532022477598578521639563234635867433671959295660695, 12166687421083389170559089691804908302428832472699495749182436581589213092217, 3632812679991187080093895389260832217698678673227923771066405656509525609396, 110427941548649020598956093796432407239565341176883953421669096034107392, 24890818663545883142698177641833147481625828210922250894857224132886859930642, 1746342996868483479470323168960727745888192655639892402573200315717968212738, 2596148429267413814265248164610048],
  [28948022309329048855892746252171976963363056481941560715954676764349967630336, 2, 27672342939093849715818956704634406947008010924794410151390523180064416532529, 12303848548474987734264033229851790378728731515137767617702738709957769741337, 13114025087374476444600140683371260318202591324286357068408528808951203684013, 28065056924063646609545023856145154741964100481021886825661504424449972180282, 220855883097298041197912187592864814479130682353767906843338192068214784, 23923941036478159785215863030003772726889308530576457539045458788510096225115, 20131043735456312894499280550381369568204175316658017843892477402159197967729, 5192296858534827628530496329220096],
  [28948022309329048855892746252171976963363056481941560715954676764349967630336, 2, 7855423700479761503187921453710294742808731518755142734894389362265289431758, 11707641632666677312745495242346944540345899691458253788807756845587209286296, 22160122593890274848248659249060150849859379627571486441049556967283080461859, 8147756922433935350389808756365366132245046194506354508163639789923748801019, 441711766194596082395824375185729628958261364707535813686676384136429568, 24304262208866999807892069267236031572319688341056426906911484367542999352051, 24334444998990322953660238064349275025239999085594186010674877791779819799972, 10384593717069655257060992658440192],
  [28948022309329048855892746252171976963363056481941560715954676764349967630336, 2, 1462001070117177729451293590516625777087858049505715290429536725195340942639, 19742848334534385237012968006577141725060336896486964222067408043307073301997, 19507123843197008332338179944669376749226009328475902641130868514186761602416, 24798530235732881742002179430771722136582956260100501019714675921257666085547, 883423532389192164791648750371459257916522729415071627373352768272859136, 28796485249582508969763698704935552547741853074525600900973368843817128121405, 18925824730405128578102032274057397487690167091826342031970198357638859390868, 20769187434139310514121985316880384],
  [28948022309329048855892746252171976963363056481941560715954676764349967630336, 2, 26510661495115932054029869890947605078470655624215534531323575627043425701417, 18053706880277101775102870786249480476922705552119039403154497317016848602771, 11936539392146939393020916654307151331878745442776112547890609685528753636426, 4868793079043238941418960169772894475912109223644208763946134344445062706835, 1766847064778384329583297500742918515833045458830143254746705536545718272, 19845753840738616665606986106510114413386300609870019707024158237727537153301, 19164948722287794732401869730131485141638827232986740406013539829459704387130, 41538374868278621028243970633760768],
  [28948022309329048855892746252171976963363056481941560715954676764349967630336, 2, 26525711559800654700201716135957681511774840897381351291852362890682617564694, 13312268750471501825754894205195915572210422751603906332230671630877280650445, 14221909120554136180678712334258122230398605361136646067318595834425423034813, 26949990871136942303621760249593417817223470201615304847320089132151319439399, 3533694129556768659166595001485837031666090917660286509493411073091436544, 15226122871905828207105332694041464188515114817534402794322952460283518874226, 20788641687733997619538479535169866693791448593745642737109082384081063447654, 83076749736557242056487941267521536],
  [28948022309329048855892746252171976963363056481941560715954676764349967630336, 2, 6131612585084410679501951552738671278013639249624269900891210878995423366776, 24443999158756453447409447002963834629559758946263388270029056404812663442463, 11891606617308579856596118111744607020905689996754464305103093606418845264886, 23858559736883303304647457939675742859235794659588156240469918862295251604494, 7067388259113537318333190002971674063332181835320573018986822146182873088, 21450985218329267624710998941106694807666731495047792403459694925026213380655, 539671774930476619519457265513764342152811111594158200626059266846434519184, 166153499473114484112975882535043072],
  [28948022309329048855892746252171976963363056481941560715954676764349967630336, 2, 9948028208606113804766699969760963607624441540555864037155476595612664755741, 11764506099928192854772543413600302040220928130278162843472709643845180230610, 28069041865574742960876906100305311807840971033556025314146760513266511762574, 4483481182956547945952628990759805687837847182126556578229004650049894725448, 14134776518227074636666380005943348126664363670641146037973644292365746176, 18199942739096598537005717088838969547846297002005191927939712927218848192727, 27232291247966395213564230813091166858291435949150958772027791534142985685187, 332306998946228968225951765070086144],
  [28948022309329048855892746252171976963363056481941560715954676764349967630336, 2, 15430749604656876342154889607448104827266558705469291109534016967905348370969, 26032614584033287342228963450117541764551626288199143546189696534208093150501, 12055922015445957382916729510798813204984527533611748522334368129984692779101, 21752922975599159755171332865014977292243490638541486842443688824529833019834, 28269553036454149273332760011886696253328727341282292075947288584731492352, 850683336599627702545470576791372438004921758449911206248740323381361251090, 10475225694913243303071420076767762790816082640525382832215879522432568491276, 664613997892457936451903530140172288],
  [28948022309329048855892746252171976963363056481941560715954676764349967630336, 2, 14373860189381074141837518147786887554763176887912615974199554332196257896344, 27104127760961924980229522118022525491941216616001783867523198789632745836486, 2136061779041452640613824012045133220342551935019551670457449019889147365197, 5909583789805090518505785359418679178105321340037173453832417135189089019480, 56539106072908298546665520023773392506657454682564584151894577169462984704, 3190377691961081360973000369535589199150281251806755652848141219431775250900, 24237731286758976972744729224914134408498538446351269977444740475816872203552, 1329227995784915872903807060280344576],
  [28948022309329048855892746252171976963363056481941560715954676764349967630336, 2, 4339363910101723450436303272687678657170991500711864770893528685074470627528, 21861505056259716543438066695649543883667453556771051103824858697724768294830, 13153134960476134257996470461480287782386429092655961722305107097967855935820, 28222966219502938027411080898683699012561604915608964585316611297204000878881, 113078212145816597093331040047546785013314909365129168303789154338925969408, 19852432139310758586349994131055041896931643892531764878925847280835194928813, 25098559629272039572013623110198161739047388929185444714908946517415178017657, 2658455991569831745807614120560689152],
  [28948022309329048855892746252171976963363056481941560715954676764349967630336, 2, 14430174702897493283696586923412526930971948605408376359322299945859275171278, 13339834370200574802208673428267964595869663014275960583138898773449451043410, 293097887462940185381359163843949232221237563140417752823870497996605608824, 5687547820878485659644803342223077103984771651275340599138418390088574621030, 226156424291633194186662080095093570026629818730258336607578308677851938816, 4542265097130877263676069187792932319114589450127708262603654836568415692292, 28599784423411953976516517668540107969715203141000691453965291735233171829329, 5316911983139663491615228241121378304],
  [28948022309329048855892746252171976963363056481941560715954676764349967630336, 2, 10949143820146609837028067074681842881022729593066016034785455772214468741438, 6007416427117719097558154302140021148502155531515926144729402549015481583403, 19608106987763645669774479635296540856061539487070663798967954481823213419574, 16114341279555217531728946402946100589396315618257364399043611864020209232278, 452312848583266388373324160190187140053259637460516673215156617355703877632, 9739084040904389576506044744870691690306903229861923145682157196030473843962, 21970233337515445487838702707178081902944151798227294063021345124957150035712, 10633823966279326983230456482242756608],
  [28948022309329048855892746252171976963363056481941560715954676764349967630336, 2, 22953101412367360346160186431306749670210318154309516223101796362442031776396, 7715997029484446697127368749418946336179704864904120448044526923455637540128, 28039143693572663970934187724995781985102118459732242913282200693576903027736, 10573389319371224591995013834719112792297541113678317129753404939177230751182, 904625697166532776746648320380374280106519274921033346430313234711407755264, 25964343971689833197420573973597302042326285111723619608927848118270893121215, 25297990445621530428925189872326164747276717516996569246038026514959540336987, 21267647932558653966460912964485513216],
  [28948022309329048855892746252171976963363056481941560715954676764349967630336, 2, 25233170936992428564114372423378666866608570742631744980087069967881554496354, 16526453988717157847302503947634266274226088156068771047061110506348135999023, 726330293898197668733671798886975193219260434478442894068246836231001995820, 0, 1809251394333065553493296640760748560213038549842066692860626469422815510528, 10805896265798400464901484283748699546041255889521675986337353427382484773762, 24374805971086201581582669566228626171951707560370411286364431476751656952831, 0],
  [0, 0, 0, 0, 0, 0, 0, 17910715997934142447390118842355904304454332983988067007102097756891873446957, 4484867037063273099773753713265292141449258529158425666506825774179188736794, 0],
  [28948022309329048855892746252171976963363056481941560715954676764349967630336, 28948022309329048855892746252171976963363056481941560715954676764349967630335, 17910715997934142447390118842355904304454332983988067007102097756891873446957, 4484867037063273099773753713265292141449258529158425666506825774179188736794, 13706129933009544953632514460093687162188838898811882278126296035532733148577, 14607375925401375884330839439894648987223352766147499819165253616997334528705, 28948022309329048855892746252171976963363056481941560715954676764349967630336, 4142247991424071127267759522137571339643116272921735649150702885702806439609, 0, 1809251394333065553493296640760748560213038549842066692860626469422815510528],
  [17910715997934142447390118842355904304454332983988067007102097756891873446957, 4484867037063273099773753713265292141449258529158425666506825774179188736794, 17847517286556928590439533456573243461241760389448277923858239087404941306314, 20099326998259545573420975987922202334415474148823621112586557251281239247584, 22425639021519859883727139301154766090924626261452462541417490663813730992710, 6144809722435106810841464937024628670924528990245442395392859796303679928990, 4142247991424071127267759522137571339643116272921735649150702885702806439609, 13858710754332433064779219816323748122388324413825224129947949043883311836415, 0, 2],
  [28948022309329048855892746252171976963363056481941560715954676764349967630336, 28948022309329048855892746252171976963363056481941560715954676764349967630335, 24590179171627276178593470989115383840978775053221001495234843268397609475436, 20221285290112193208602112742974960390776582511506151555144157570170567302317, 11109302804026124081131111888752152157278844418188021835953243892322958840847, 14142578050205602274344661114953279677679763293596072574380837628127936485208, 28948022309329048855892746252171976963363056481941560715954676764349967630336, 24242414555923869054564152610868749215903541929687988207380066862528192663921, 0, 3618502788666131106986593281521497120426077099684133385721252938845631021056],
  [24590179171627276178593470989115383840978775053221001495234843268397609475436, 20221285290112193208602112742974960390776582511506151555144157570170567302317, 22855698129054252717181361093178565439319407493714336544916734408627016123699, 13919921955539004818370035231463732744677369408990177640756059316828511946053, 21115708447117930197379459832842027056870262003492712071591269506702945619828, 10974973864251298277139791720133090651605541983420840507359435954436432457218, 24242414555923869054564152610868749215903541929687988207380066862528192663921, 13339942549822413080332879843422184667674154821145779251323517647696493033902, 0, 2],
  [28948022309329048855892746252171976963363056481941560715954676764349967630336, 28948022309329048855892746252171976963363056481941560715954676764349967630335, 15500041752434157855133648577405692245798084367848426397622693987827881525992, 11643483074703009967371130445364710626361195243843497792922264542583006892657, 3532076737233698605937570197569253448981406725173091501442793534261606665907, 22051098593835613933307653258016292826687512609655647373419469979805912731127, 28948022309329048855892746252171976963363056481941560715954676764349967630336, 594059214198252179261242747356508492488011008082951019963946830065951949562, 0, 7237005577332262213973186563042994240852154199368266771442505877691262042112],
  [15500041752434157855133648577405692245798084367848426397622693987827881525992, 11643483074703009967371130445364710626361195243843497792922264542583006892657, 24831626615564715007818121969207345022563689449318458292595763082440406344980, 23359354857239966997488493942939492303528136563369796434586978691454802811844, 17858638357454994925723687573443177438818870063425976007671965809252164857857, 13328311581503551879651259420555954369445024101822659431853115295888950149717, 594059214198252179261242747356508492488011008082951019963946830065951949562, 2828945976331406563737071301648838048920721613138440403758361769525669316714, 0, 2],
  [0, 0, 2887463252686961028893041024776770962404384199188647673392749459654341764654, 8556995040698813893046896354717366191520600406812511948822100940397093038262, 503689871145053997754552561155392221683893701206879644552908835425478426270, 2748012126225773635345084917897775150198462837318186507540721499406684786945, 0, 2748012126225773635345084917897775150198462837318186507540721499406684786945, 0, 14474011154664524427946373126085988481704308398736533542885011755382524084224],
  [28948022309329048855892746252171976963363056481941560715954676764349967630336, 2, 2887463252686961028893041024776770962404384199188647673392749459654341764654, 8556995040698813893046896354717366191520600406812511948822100940397093038262, 0, 0, 0, 0, 0, 45560315531506369815346746415080538112]]

/-- The region of the check of overflow of an honest prover. -/
def honestOverflow : List (List Nat) := [[0, 0, 0, 0, 0, 0, 45560315531506369815346746415080538112, 1, 0, 0], [0, 0, 0, 0, 0, 0, 21267647932558653966460912964485513216, 28948022309329048855892746252171976963363056481941560715954676764349967630336, 1361129467683753853853498429727072845823, 0], [0, 0, 0, 0, 0, 0, 17692343519905746328747230468826436096416641489024496553841033756773524792986, 0, 0, 0]]

/-- The cells of an honest prover; the scalar is -1, as a number one less than the characteristic of the field. -/
def honest : Content Fp := contentOf honestRows [1361129467683753853853498429727072845823, 1329227995784915872903807060280344575, 1298074214633706907132624082305023, 1267650600228229401496703205375, 1237940039285380274899124223, 1208925819614629174706175, 1180591620717411303423, 1152921504606846975, 1125899906842623, 1099511627775, 1073741823, 1048575, 1023, 0] honestOverflow (-1)

/-- The base and the scalar as they are when keys are generated. -/
def forgedBase : EccPoint Fp := ⟨⟨⟨4, 0, .advice 0⟩, none⟩, ⟨⟨4, 0, .advice 1⟩, none⟩⟩
def forgedAlpha : Assigned Fp := ⟨⟨4, 0, .advice 2⟩, none⟩

def okLookups (w : Content Fp) (calls : Calls Fp) (region : Nat) : Bool := calls.all fun
  | .enable s o => s != forgedMul.overflow.lookup.qLookup || (forgedMul.overflow.chip (p := pallasBase)).lookups.all fun l =>
    decide ((l.1.eval (enabled calls) (w region) o).val < 1024)
  | _ => true

def checkOf (w : Content Fp) (x y : Fp) : Bool := match forgedMul.assign 0 forgedAlpha forgedBase with
  | .ok (regions, out) => regions.zipIdx.all (fun (calls, i) =>
      calls.all (okCall (chipWith half forgedMul) w i calls) && okLookups w calls i) &&
    w.at out.x.cell == x && w.at out.y.cell == y
  | .error _ => false

theorem forged_check : checkOf forged (-1) (-2) = true := by decide +kernel

def honestX : Fp := ((2887463252686961028893041024776770962404384199188647673392749459654341764654 : Nat) : Fp)
def honestY : Fp := ((8556995040698813893046896354717366191520600406812511948822100940397093038262 : Nat) : Fp)

theorem honest_check : checkOf honest honestX honestY = true := by decide +kernel

theorem lookup_of {w : Content Fp} {calls : Calls Fp} {region : Nat} (h : okLookups w calls region = true) :
    ∀ l ∈ (forgedMul.chip (p := pallasBase)).lookups, ∀ row : Int, l.1.eval (enabled calls) (w region) row ∈
      (RangeCheck.load 10 : List Fp) := by
  intro l hl row
  obtain ⟨-, e⟩ := eval_lookup (c := forgedMul.overflow.lookup) (k := 10) (sel := enabled calls) (w := w region) (row := row) l hl
  have hmem : ∀ x : Fp, x.val < 1024 → x ∈ (RangeCheck.load 10 : List Fp) := fun x hx =>
    List.mem_map.2 ⟨x.val, List.mem_range.2 hx, ZMod.natCast_zmod_val x⟩
  refine hmem _ ?_
  by_cases hen : enabled calls forgedMul.overflow.lookup.qLookup row = true
  · obtain ⟨o, ho, rfl⟩ := enabled_iff.1 hen
    have h1 := List.all_eq_true.1 h _ ho
    simp only [bne_self_eq_false, Bool.false_or] at h1
    exact of_decide_eq_true (List.all_eq_true.1 h1 l hl)
  · rw [e, if_neg hen, zero_mul, ZMod.val_zero]
    norm_num

theorem sat_of_check {w : Content Fp} {x y : Fp} (h : checkOf w x y = true) :
    ∃ regions out, forgedMul.assign 0 forgedAlpha forgedBase = .ok (regions, out) ∧
    SatAll forgedMul.chip (fun _ => RangeCheck.load 10) w 0 regions ∧ (w.at out.x.cell, w.at out.y.cell) = (x, y) := by
  unfold checkOf at h
  split at h
  case h_2 => cases h
  rename_i regions out hok
  simp only [Bool.and_eq_true, beq_iff_eq] at h
  obtain ⟨⟨h1, h2⟩, h3⟩ := h
  refine ⟨regions, out, hok, ?_, Prod.ext h2 h3⟩
  intro i hi
  have hm : (regions[i], i) ∈ regions.zipIdx := by
    rw [List.mem_zipIdx_iff_getElem?]
    exact List.getElem?_eq_getElem hi
  have h4 := List.all_eq_true.1 h1 _ hm
  simp only [Bool.and_eq_true] at h4
  rw [Nat.zero_add]
  refine ⟨ok_enforced h4.1, ?_, lookup_of h4.2⟩
  rw [← chipWith_eq, half_eq]
  exact ok_gates h4.1

end Verif.Lemmas.Ecc
