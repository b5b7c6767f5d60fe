import Verif.Lemmas.LobCertified

/-! Certificate for `lob_bnd_setup` with n = 23, part 1; generated. The data are found numerically, the kernel checks them. -/

namespace Gslib.Lob.Cert23
open Gslib.Lob Gslib.Poly
set_option maxRecDepth 100000
set_option Elab.async false

def P : Par := ⟨23, 1024, 13, 7, 23, 3357, 3187, 3956, 2 ^ 3955⟩
def Z : List ℕ := [0, 14472844121267421918537233261900900979389207860350, 48242044289289795864360320148570844151648074551200, 100541441959654989049839679652632842088201651860710, 170348903348714113776799380709995115401488116986670, 256304958827939316054836456933003208712780771046140, 356736355539863791523854466397231256108688118197700, 469688228863155831869884679847700188869653485072660, 592962062085525170804049511784904360448046276005830, 724158451054206932893122367320864795826808893390580, 860723795959331601408137387017233066091455542825560, 1000000000000000000000000000000000000000000000000000, 1139276204040668398591862612982766933908544457174440, 1275841548945793067106877632679135204173191106609420, 1407037937914474829195950488215095639551953723994170, 1530311771136844168130115320152299811130346514927340, 1643263644460136208476145533602768743891311881802300, 1743695041172060683945163543066996791287219228953860, 1829651096651285886223200619290004884598511883013330, 1899458558040345010950160320347367157911798348139290, 1951757955710710204135639679851429155848351925448800, 1985527155878732578081462766738099099020610792139650, 2000000000000000000000000000000000000000000000000000]
def r0 : Row := ⟨true, 1151572395, 1348950290, true, 11502984, 15995458, [⟨92, 93, false, 8789958278, 15949791626, 4196934875, 9580607200⟩, ⟨141, 142, true, 1441470577, 1993765913, 853011009, 1522081225⟩, ⟨188, 189, false, 436249759, 527376993, 289023408, 453650531⟩, ⟨235, 236, true, 176544145, 200690905, 122467427, 182335298⟩, ⟨281, 282, false, 89671207, 96952424, 65643281, 91949851⟩, ⟨327, 328, true, 52378113, 55143152, 39727711, 53449236⟩, ⟨373, 374, false, 34042709, 35478917, 26586643, 34787204⟩, ⟨419, 420, true, 23901506, 25196535, 19395712, 24879756⟩, ⟨464, 465, false, 17800819, 19488051, 16043731, 19446864⟩, ⟨510, 511, true, 14708626, 16250131, 13550071, 16239934⟩, ⟨556, 557, false, 13064658, 14549077, 12252164, 14549017⟩, ⟨602, 603, true, 12441053, 13960143, 11855255, 13960133⟩, ⟨647, 648, false, 12223273, 14363753, 12782025, 14363804⟩, ⟨693, 694, true, 13413455, 15918213, 14294219, 15918346⟩, ⟨739, 740, false, 15947045, 19168449, 17422039, 19191641⟩, ⟨784, 785, true, 19801707, 25265267, 24199093, 25567324⟩, ⟨830, 831, false, 28908144, 37948687, 37287673, 38804415⟩, ⟨876, 877, true, 49281658, 67948810, 66350916, 71262333⟩, ⟨922, 923, false, 106530387, 161995527, 156242144, 185036023⟩, ⟨968, 969, true, 355183746, 705308835, 656984926, 1066578984⟩]⟩
def r1 : Row := ⟨true, 841762986, 1007053575, true, 11586720, 16111586, [⟨80, 81, false, 13702855626, 22280263603, 7738475059, 14683859531⟩, ⟨140, 141, true, 1706237383, 2502246286, 971808254, 1812101865⟩, ⟨188, 189, false, 471030372, 589253221, 302674155, 491733646⟩, ⟨235, 236, true, 186086931, 215153142, 127122123, 192567674⟩, ⟨281, 282, false, 93236841, 101526202, 67665556, 95713793⟩, ⟨327, 328, true, 53973023, 57031245, 40717380, 55115753⟩, ⟨373, 374, false, 35009712, 36407403, 27131865, 35645262⟩, ⟨419, 420, true, 24445049, 25721515, 19730145, 25380939⟩, ⟨464, 465, false, 18140493, 19827100, 16285911, 19780316⟩, ⟨510, 511, true, 14945721, 16491875, 13728420, 16478506⟩, ⟨556, 557, false, 13246536, 14735947, 12395282, 14735883⟩, ⟨602, 603, true, 12593546, 14119739, 11980134, 14119727⟩, ⟨647, 648, false, 12358804, 14512276, 12906482, 14512326⟩, ⟨693, 694, true, 13548548, 16069272, 14423121, 16069405⟩, ⟨739, 740, false, 16095024, 19337648, 17569415, 19360072⟩, ⟨784, 785, true, 19974338, 25476315, 24394500, 25778894⟩, ⟨830, 831, false, 29146070, 38250516, 37585360, 39109637⟩, ⟨876, 877, true, 49669130, 68469257, 66860552, 71800736⟩, ⟨922, 923, false, 107339651, 163203541, 157409461, 186398869⟩, ⟨968, 969, true, 357820219, 710484026, 661810681, 1074360132⟩]⟩
def r2 : Row := ⟨true, 442701028, 556670019, true, 11786921, 16389214, [⟨66, 67, false, 16028355166, 24199435439, 9902044137, 16995197331⟩, ⟨128, 129, true, 2696500402, 3550444245, 1797556839, 2818494761⟩, ⟨186, 187, false, 627727126, 828558646, 395107903, 658306686⟩, ⟨234, 235, true, 220480372, 258729481, 150092559, 228430366⟩, ⟨280, 281, false, 105599546, 114136557, 77837734, 108247452⟩, ⟨327, 328, true, 58076661, 61956026, 43201139, 59415540⟩, ⟨373, 374, false, 37121915, 38768164, 28487406, 37815468⟩, ⟨419, 420, true, 25812023, 27049596, 20554507, 26630565⟩, ⟨464, 465, false, 18984652, 20665146, 16879430, 20603820⟩, ⟨510, 511, true, 15529306, 17084517, 14162924, 17063003⟩, ⟨556, 557, false, 13691007, 15191015, 12742338, 15190942⟩, ⟨602, 603, true, 12964181, 14506591, 12281861, 14506575⟩, ⟨647, 648, false, 12686944, 14870995, 13206437, 14871042⟩, ⟨693, 694, true, 13874534, 16433091, 14733061, 16433223⟩, ⟨739, 740, false, 16451176, 19744263, 17923132, 19764774⟩, ⟨784, 785, true, 20389047, 25982707, 24862915, 26286404⟩, ⟨830, 831, false, 29716717, 38973771, 38298759, 39840805⟩, ⟨876, 877, true, 50597322, 69715154, 68080654, 73089161⟩, ⟨922, 923, false, 109276537, 166093458, 160202150, 189658175⟩, ⟨968, 969, true, 364126702, 722859646, 673350987, 1092964846⟩]⟩
def r3 : Row := ⟨true, 222253540, 294332117, true, 12111008, 16838587, [⟨58, 59, false, 12392366568, 18483713623, 7675297916, 13124503145⟩, ⟨114, 115, true, 2955423970, 3478377437, 2196260061, 3046730331⟩, ⟨175, 176, false, 948055113, 1147265862, 675726393, 981469052⟩, ⟨232, 233, true, 303403411, 378461472, 200913457, 316050796⟩, ⟨280, 281, false, 125247577, 141695972, 88011537, 129203298⟩, ⟨326, 327, true, 67399751, 71610100, 50734751, 68884403⟩, ⟨372, 373, false, 41314761, 43130765, 32681457, 42359150⟩, ⟨418, 419, true, 27621803, 29406456, 23180702, 29147598⟩, ⟨464, 465, false, 20454972, 22109550, 17885461, 22020792⟩, ⟨510, 511, true, 16527095, 18090035, 14891314, 18053495⟩, ⟨556, 557, false, 14440617, 15960356, 13319115, 15953307⟩, ⟨602, 603, true, 13582850, 15149052, 12779908, 15149028⟩, ⟨647, 648, false, 13230718, 15462728, 13699260, 15462770⟩, ⟨693, 694, true, 14411369, 17030099, 15240089, 17030230⟩, ⟨739, 740, false, 17034839, 20408781, 18499826, 20425952⟩, ⟨784, 785, true, 21066327, 26807882, 25624856, 27112996⟩, ⟨830, 831, false, 30645885, 40149437, 39458622, 41028681⟩, ⟨876, 877, true, 52105266, 71736731, 70060642, 75178381⟩, ⟨922, 923, false, 112418092, 170776784, 164728308, 194937101⟩, ⟨968, 969, true, 374344691, 742900561, 692040107, 1123085219⟩]⟩
def r4 : Row := ⟨true, 132975252, 179792271, true, 12572415, 17478249, [⟨56, 57, false, 7803023992, 11976575686, 4597942160, 8303433889⟩, ⟨105, 106, true, 2169681602, 2378832291, 1676032512, 2221414709⟩, ⟨160, 161, false, 1037050011, 1092462628, 848508670, 1054574477⟩, ⟨221, 222, true, 458229112, 522715146, 343750144, 471066568⟩, ⟨278, 279, false, 175713766, 211788368, 119837387, 182298455⟩, ⟨326, 327, true, 81763747, 90670338, 58544891, 84121458⟩, ⟨372, 373, false, 48259791, 50778580, 36791125, 49230487⟩, ⟨418, 419, true, 31668262, 33251036, 25562974, 32794599⟩, ⟨464, 465, false, 22801485, 24401628, 19420971, 24237781⟩, ⟨510, 511, true, 18072755, 19628740, 15984603, 19566270⟩, ⟨556, 557, false, 15577004, 17119152, 14173507, 17097019⟩, ⟨601, 602, true, 13996969, 16099946, 14072244, 16099946⟩, ⟨647, 648, false, 14032873, 16329526, 14416740, 16329559⟩, ⟨693, 694, true, 15195732, 17897661, 15973424, 17897790⟩, ⟨739, 740, false, 17881324, 21368491, 19329691, 21380375⟩, ⟨784, 785, true, 22043451, 27994396, 26717510, 28300665⟩, ⟨830, 831, false, 31980383, 41833678, 41084388, 42728999⟩, ⟨876, 877, true, 54263686, 74624960, 72890019, 78160326⟩, ⟨922, 923, false, 116903829, 177455407, 171183649, 202458611⟩, ⟨968, 969, true, 388911410, 771448382, 718664256, 1165974239⟩]⟩
def r5 : Row := ⟨true, 88910720, 121446196, true, 13191235, 18335922, [⟨56, 57, false, 5038210985, 7956872533, 2836298013, 5385716605⟩, ⟨103, 104, true, 1363018730, 1534870483, 997533030, 1402542424⟩, ⟨151, 152, false, 710778313, 749241669, 628916283, 744705631⟩, ⟨206, 207, true, 478291335, 496988123, 421251061, 493159179⟩, ⟨267, 268, false, 265445684, 291825939, 205496004, 271689061⟩, ⟨324, 325, true, 116187116, 136938935, 80699067, 120226228⟩, ⟨371, 372, false, 61048132, 65146396, 45932291, 62426092⟩, ⟨418, 419, true, 37966878, 39705360, 29171197, 38683106⟩, ⟨464, 465, false, 26519087, 27973729, 21688173, 27643317⟩, ⟨510, 511, true, 20413006, 21922988, 17562503, 21808434⟩, ⟨556, 557, false, 17243272, 18795939, 15384217, 18748500⟩, ⟨601, 602, true, 15290562, 17457415, 15150550, 17457415⟩, ⟨647, 648, false, 15163498, 17539121, 15409183, 17539140⟩, ⟨693, 694, true, 16286338, 19094766, 16978574, 19094889⟩, ⟨739, 740, false, 19046103, 22681335, 20459160, 22685095⟩, ⟨784, 785, true, 23378180, 29607615, 28197573, 29913785⟩, ⟨830, 831, false, 33791894, 44111916, 43254418, 45026339⟩, ⟨876, 877, true, 57179910, 78517198, 76704003, 82173419⟩, ⟨922, 923, false, 122944072, 186432615, 179862296, 212556839⟩, ⟨968, 969, true, 408483124, 809763608, 754401200, 1223506473⟩]⟩
def r6 : Row := ⟨true, 64083533, 88037410, true, 13996142, 19451144, [⟨56, 57, false, 3557227006, 5708410989, 1951881726, 3812246935⟩, ⟨102, 103, true, 951887499, 1082255541, 684173794, 981215986⟩, ⟨149, 150, false, 465640048, 484001874, 377970585, 475952617⟩, ⟨197, 198, true, 309897447, 344342188, 308639473, 344338364⟩, ⟨252, 253, false, 262401055, 280422673, 248395798, 280233538⟩, ⟨313, 314, true, 175667057, 188812273, 138871232, 179267582⟩, ⟨369, 370, false, 88066434, 99239297, 64118420, 90610321⟩, ⟨417, 418, true, 48566929, 51509255, 36812450, 49604754⟩, ⟨463, 464, false, 31998387, 33779544, 26419813, 33404769⟩, ⟨509, 510, true, 23397579, 25421701, 20821069, 25346044⟩, ⟨555, 556, false, 19109567, 21215626, 17877738, 21215486⟩, ⟨601, 602, true, 17135626, 19368472, 16635160, 19368448⟩, ⟨647, 648, false, 16736179, 19198591, 16754120, 19198591⟩, ⟨693, 694, true, 17775220, 20712105, 18324183, 20712218⟩, ⟨738, 739, false, 19702674, 24330704, 22645180, 24434753⟩, ⟨784, 785, true, 25157078, 31744331, 30148115, 32047411⟩, ⟨830, 831, false, 36186109, 47108944, 46098659, 48043865⟩, ⟨876, 877, true, 61010233, 83612095, 81698300, 87426475⟩, ⟨922, 923, false, 130842337, 198143978, 191186868, 225710058⟩, ⟨968, 969, true, 434001225, 859649011, 800935858, 1298358889⟩]⟩
def r7 : Row := ⟨true, 48765104, 67230344, true, 15027400, 20879375, [⟨55, 56, false, 2866089033, 4550844877, 1603715838, 3066207070⟩, ⟨56, 57, false, 2671963739, 4330018510, 1443178007, 2867978206⟩, ⟨102, 103, true, 697661424, 811734711, 487480123, 721419166⟩, ⟨148, 149, false, 332911437, 346033655, 262866841, 338519612⟩, ⟨195, 196, true, 205592116, 222818342, 186882276, 222322503⟩, ⟨243, 244, false, 169467071, 195647074, 181049317, 195679093⟩, ⟨298, 299, true, 167661803, 183270947, 166531314, 183269983⟩, ⟨359, 360, false, 129178517, 136906859, 103641782, 131546914⟩, ⟨415, 416, true, 70546637, 78598207, 51779390, 72490542⟩, ⟨463, 464, false, 41847189, 44187595, 31872125, 42705718⟩, ⟨509, 510, true, 29265181, 30991359, 24376634, 30688598⟩, ⟨555, 556, false, 22793354, 24842337, 20437748, 24782948⟩, ⟨601, 602, true, 19812533, 22077762, 18683531, 22077690⟩, ⟨647, 648, false, 18939467, 21504529, 18571628, 21504529⟩, ⟨693, 694, true, 19808488, 22889995, 20113714, 22890090⟩, ⟨738, 739, false, 21731346, 26663839, 24693974, 26759199⟩, ⟨784, 785, true, 27509672, 34547104, 32689789, 34841021⟩, ⟨830, 831, false, 39317846, 51005349, 49778744, 51959065⟩, ⟨876, 877, true, 65979914, 90193386, 88152716, 94209412⟩, ⟨922, 923, false, 141030926, 213206004, 205755937, 242592258⟩, ⟨968, 969, true, 466796147, 923642521, 860641101, 1394292677⟩]⟩
def r8 : Row := ⟨true, 38674441, 53443017, true, 16341496, 22698334, [⟨55, 56, false, 2255687464, 3603320645, 1250425997, 2415473737⟩, ⟨102, 103, true, 539711789, 637134608, 370442245, 559193436⟩, ⟨148, 149, false, 250018465, 264002788, 191537955, 255131686⟩, ⟨194, 195, true, 149911503, 160953496, 131468613, 160255297⟩, ⟨241, 242, false, 113556658, 126832291, 110203536, 126831345⟩, ⟨288, 289, true, 103965852, 127366958, 123474689, 128631120⟩, ⟨344, 345, false, 120390018, 133972139, 123717803, 133972139⟩, ⟨405, 406, true, 103795946, 108910157, 84202909, 105528996⟩, ⟨461, 462, false, 61125623, 67543673, 45122872, 62748056⟩, ⟨508, 509, true, 39229204, 40833760, 31346627, 40143796⟩, ⟨555, 556, false, 28766281, 30544088, 24141226, 30281133⟩, ⟨601, 602, true, 23849933, 26076252, 21553862, 26029636⟩, ⟨647, 648, false, 22102038, 24741827, 21051764, 24741821⟩, ⟨693, 694, true, 22626264, 25854991, 22505687, 25854991⟩, ⟨738, 739, false, 24477453, 29776819, 27394951, 29855506⟩, ⟨784, 785, true, 30633059, 38228499, 35999225, 38501576⟩, ⟨830, 831, false, 43416335, 56064410, 54527202, 57029296⟩, ⟨876, 877, true, 72415659, 98667889, 96468954, 102922584⟩, ⟨922, 923, false, 154127473, 232492515, 224418611, 264153408⟩, ⟨968, 969, true, 508749982, 1005316803, 936858787, 1516589237⟩]⟩
def r9 : Row := ⟨true, 31694236, 43867824, true, 18018400, 25017889, [⟨55, 56, false, 1838719521, 2949495933, 1012727361, 1970256214⟩, ⟨102, 103, true, 434753770, 518246109, 294837849, 451043260⟩, ⟨148, 149, false, 197415953, 210738152, 148335072, 201908724⟩, ⟨194, 195, true, 118009003, 124386172, 97352732, 122942986⟩, ⟨240, 241, false, 83808274, 92432781, 78252272, 92416314⟩, ⟨287, 288, true, 73211658, 83448821, 73976382, 83448821⟩, ⟨334, 335, false, 74719789, 93042724, 91466417, 94476092⟩, ⟨390, 391, true, 95108814, 107304880, 100261733, 107314493⟩, ⟨450, 451, false, 91519017, 94012812, 76863590, 92627594⟩, ⟨506, 507, true, 58368675, 62533731, 44784680, 59636209⟩, ⟨554, 555, false, 38823606, 40508054, 31281063, 39899876⟩, ⟨600, 601, true, 29537478, 32317048, 26907607, 32269531⟩, ⟨646, 647, false, 25962571, 29463644, 25544704, 29463644⟩, ⟨692, 693, true, 25661938, 30022881, 26738227, 30023004⟩, ⟨738, 739, false, 28270200, 33993769, 30994631, 34040596⟩, ⟨784, 785, true, 34836511, 43113458, 40340010, 43343453⟩, ⟨830, 831, false, 48828948, 62677301, 60683648, 63634280⟩, ⟨876, 877, true, 80799744, 109627498, 107232417, 114155908⟩, ⟨922, 923, false, 171026611, 257256602, 248393831, 291746163⟩, ⟨968, 969, true, 562555246, 1109751399, 1034343059, 1672733822⟩]⟩
def r10 : Row := ⟨true, 26681372, 36972238, true, 20173202, 27995851, [⟨55, 56, false, 1541943025, 2480827532, 845348792, 1653023061⟩, ⟨102, 103, true, 361498463, 433877002, 243091022, 375392070⟩, ⟨148, 149, false, 161868211, 174267332, 120026388, 165806174⟩, ⟨194, 195, true, 96446538, 100614340, 76488173, 98830616⟩, ⟨240, 241, false, 66971271, 72167865, 58674269, 71876039⟩, ⟨286, 287, true, 54577233, 61324053, 52940626, 61323760⟩, ⟨332, 333, false, 50973631, 61234463, 56698192, 61375629⟩, ⟨380, 381, true, 59190342, 74529472, 73427280, 76006297⟩, ⟨436, 437, false, 81600539, 93070394, 87791994, 93205274⟩, ⟨496, 497, true, 84702753, 87334476, 72302095, 86353949⟩, ⟨552, 553, false, 58295164, 62130396, 44934918, 59513113⟩, ⟨600, 601, true, 41224377, 43123009, 33520017, 42563235⟩, ⟨646, 647, false, 33492407, 36797720, 30839886, 36772337⟩, ⟨692, 693, true, 31549625, 36041694, 31506901, 36041716⟩, ⟨738, 739, false, 33682467, 39853520, 35884280, 39853897⟩, ⟨784, 785, true, 40627133, 49717055, 46116732, 49903179⟩, ⟨830, 831, false, 56100380, 71442157, 68755877, 72374562⟩, ⟨876, 877, true, 91863682, 123953679, 121316714, 128780610⟩, ⟨921, 922, false, 178933169, 279646708, 268978526, 325649968⟩, ⟨968, 969, true, 632137771, 1244295330, 1159977185, 1873512857⟩]⟩
def r11 : Row := ⟨true, 22975311, 31863968, true, 22975311, 31863968, [⟨55, 56, false, 1323971029, 2134830089, 723372528, 1419839207⟩, ⟨102, 103, true, 308458858, 372063388, 206147385, 320530786⟩, ⟨148, 149, false, 136721879, 148121252, 100428300, 140200882⟩, ⟨193, 194, true, 79527092, 84203257, 66124831, 83309434⟩, ⟨239, 240, false, 53973152, 59016002, 48887085, 58896049⟩, ⟨285, 286, true, 42710157, 48308673, 41792383, 48308382⟩, ⟨331, 332, false, 38389303, 45381519, 41039277, 45381545⟩, ⟨378, 379, true, 40624959, 49261378, 45975992, 49433912⟩, ⟨425, 426, false, 48413971, 63735172, 62485156, 66227652⟩, ⟨481, 482, true, 72928096, 86353498, 84030173, 87085240⟩, ⟨542, 543, false, 84030173, 87085240, 72928096, 86353498⟩, ⟨598, 599, true, 62485156, 66227652, 48413971, 63735172⟩, ⟨645, 646, false, 45975992, 49433912, 40624959, 49261378⟩, ⟨692, 693, true, 41039277, 45381545, 38389303, 45381519⟩, ⟨738, 739, false, 41792383, 48308382, 42710157, 48308673⟩, ⟨784, 785, true, 48887085, 58896049, 53973152, 59016002⟩, ⟨830, 831, false, 66124831, 83309434, 79527092, 84203257⟩, ⟨875, 876, true, 100428300, 140200882, 136721879, 148121252⟩, ⟨921, 922, false, 206147385, 320530786, 308458858, 372063388⟩, ⟨968, 969, true, 723372528, 1419839207, 1323971029, 2134830089⟩]⟩
def rows : List Row := [r0, r1, r2, r3, r4, r5, r6, r7, r8, r9, r10, r11]

theorem c0 : cellsOk P (offc P) Z rows 1 0 32 = true := by decide +kernel
theorem c1 : cellsOk P (offc P) Z rows 1 32 32 = true := by decide +kernel
theorem c2 : cellsOk P (offc P) Z rows 1 64 32 = true := by decide +kernel
theorem c3 : cellsOk P (offc P) Z rows 1 96 32 = true := by decide +kernel
theorem c4 : cellsOk P (offc P) Z rows 1 128 32 = true := by decide +kernel
theorem c5 : cellsOk P (offc P) Z rows 1 160 32 = true := by decide +kernel
theorem c6 : cellsOk P (offc P) Z rows 1 192 32 = true := by decide +kernel
theorem c7 : cellsOk P (offc P) Z rows 1 224 32 = true := by decide +kernel

end Gslib.Lob.Cert23
