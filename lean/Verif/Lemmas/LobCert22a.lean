import Verif.Lemmas.LobCertified

/-! Certificate for `lob_bnd_setup` with n = 22, part 1; generated. The data are found numerically, the kernel checks them. -/

namespace Gslib.Lob.Cert22
open Gslib.Lob Gslib.Poly
set_option maxRecDepth 100000
set_option Elab.async false

def P : Par := ⟨22, 1024, 14, 7, 24, 3188, 3018, 3784, 2 ^ 3783⟩
def Z : List ℕ := [0, 15847561542353823447710377787929703394486463880480, 52795716000771319475786233384270490087937954658640, 109937709809095529470342174220913209800465917152850, 186051072388078863954558151943864957561331485092900, 279512760038797841880118103601534241406654573880500, 388330561715741028773788394130073400654559695392300, 510185124810097650191248764316729958328728364204850, 642479289861080461939042719759820870716692896057060, 782393414840714958212044906534607236724993305985810, 926945459989101665238911209535892643807220763666484, 1073054540010898334761088790464107356192779236333516, 1217606585159285041787955093465392763275006694014190, 1357520710138919538060957280240179129283307103942940, 1489814875189902349808751235683270041671271635795150, 1611669438284258971226211605869926599345440304607700, 1720487239961202158119881896398465758593345426119500, 1813948927611921136045441848056135042438668514907100, 1890062290190904470529657825779086790199534082847150, 1947204283999228680524213766615729509912062045341360, 1984152438457646176552289622212070296605513536119520, 2000000000000000000000000000000000000000000000000000]
def r0 : Row := ⟨false, 1344020824, 1572622868, true, 14723142, 20423674, [⟨96, 97, true, 9655005809, 16985039454, 4868254565, 10469989570⟩, ⟨148, 149, false, 1516483050, 2097116913, 913118928, 1599592353⟩, ⟨197, 198, true, 468466868, 566896844, 316655662, 486575442⟩, ⟨246, 247, false, 192828086, 218666797, 137229130, 198809034⟩, ⟨294, 295, true, 99435775, 106843918, 74901401, 101748940⟩, ⟨342, 343, false, 59032325, 61619695, 46250579, 60084180⟩, ⟨390, 391, true, 38557545, 40320494, 31662417, 39802212⟩, ⟨438, 439, false, 27499508, 29239620, 23704423, 29050075⟩, ⟨486, 487, true, 21455718, 23158050, 19237066, 23093400⟩, ⟨534, 535, false, 18158125, 19869214, 16836884, 19857472⟩, ⟨582, 583, true, 16593103, 18408202, 15862456, 18408172⟩, ⟨630, 631, false, 16353231, 18395784, 16106231, 18395784⟩, ⟨678, 679, true, 17421360, 19909553, 17710399, 19909637⟩, ⟨725, 726, false, 19387510, 23436354, 21908670, 23521881⟩, ⟨773, 774, true, 24672686, 30558626, 29214523, 30842090⟩, ⟨821, 822, false, 35318817, 45255619, 44530944, 46201231⟩, ⟨869, 870, true, 59193407, 80016230, 78211098, 84037280⟩, ⟨917, 918, false, 125991012, 188220843, 181692863, 215950825⟩, ⟨965, 966, true, 412800871, 800379804, 747059799, 1198746786⟩]⟩
def r1 : Row := ⟨false, 982904191, 1174424195, true, 14840563, 20586084, [⟨84, 85, true, 14415203002, 23056477284, 8350713393, 15406637951⟩, ⟨146, 147, false, 1894778033, 2701181183, 1139354381, 2002636110⟩, ⟨197, 198, true, 505583227, 631918191, 331942027, 527087933⟩, ⟨245, 246, false, 209839043, 234292218, 152529042, 215869436⟩, ⟨294, 295, true, 103432932, 111894723, 77280244, 105952983⟩, ⟨342, 343, false, 60857989, 63748917, 47440541, 61984279⟩, ⟨390, 391, true, 39664817, 41391761, 32334605, 40802270⟩, ⟨438, 439, false, 28134956, 29861464, 24128696, 29648620⟩, ⟨486, 487, true, 21866851, 23565458, 19533433, 23494189⟩, ⟨534, 535, false, 18454070, 20169942, 17064459, 20154530⟩, ⟨582, 583, true, 16828204, 18650401, 16053872, 18650368⟩, ⟨630, 631, false, 16558556, 18612495, 16282541, 18612495⟩, ⟨678, 679, true, 17618541, 20121432, 17888875, 20121515⟩, ⟨725, 726, false, 19589956, 23668356, 22116195, 23753319⟩, ⟨773, 774, true, 24911660, 30841826, 29475776, 31125100⟩, ⟨821, 822, false, 35640411, 45653331, 44923833, 46602536⟩, ⟨869, 870, true, 59706556, 80691240, 78872829, 84736091⟩, ⟨917, 918, false, 127043579, 189763004, 183184519, 217697271⟩, ⟨965, 966, true, 416164627, 806821866, 753079596, 1208335425⟩]⟩
def r2 : Row := ⟨false, 517452040, 649621521, true, 15121737, 20974960, [⟨69, 70, true, 17231037939, 25539867594, 10948994487, 18216836065⟩, ⟨134, 135, false, 2895728280, 3773394079, 1977740222, 3020262052⟩, ⟨195, 196, true, 670295784, 882462811, 430116252, 702031302⟩, ⟨245, 246, false, 240547551, 281493986, 167840398, 248801631⟩, ⟨294, 295, true, 113995215, 125832911, 83307934, 117112292⟩, ⟨342, 343, false, 65559897, 69304290, 50436297, 66890750⟩, ⟨390, 391, true, 42501370, 44117131, 34009697, 43333743⟩, ⟨438, 439, false, 29733765, 31416761, 25176451, 31142222⟩, ⟨486, 487, true, 22888151, 24572352, 20259981, 24483914⟩, ⟨534, 535, false, 19182409, 20907259, 17619148, 20882412⟩, ⟨582, 583, true, 17402786, 19240374, 16518314, 19240335⟩, ⟨630, 631, false, 17057716, 19138002, 16708812, 19138002⟩, ⟨677, 678, true, 17424670, 20613595, 18901685, 20633371⟩, ⟨725, 726, false, 20078700, 24227458, 22615572, 24310950⟩, ⟨773, 774, true, 25487152, 31522888, 30103355, 31805492⟩, ⟨821, 822, false, 36413386, 46608261, 45867290, 47565760⟩, ⟨869, 870, true, 60938167, 82310088, 80459962, 86411336⟩, ⟨917, 918, false, 129567220, 193458527, 186759211, 221880828⟩, ⟨965, 966, true, 424224093, 822251750, 767498527, 1231298075⟩]⟩
def r3 : Row := ⟨false, 260096131, 343777177, true, 15578199, 21606176, [⟨61, 62, true, 13052874863, 19226419605, 8253076903, 13795377632⟩, ⟨119, 120, false, 3204314296, 3725791289, 2443370258, 3295353992⟩, ⟨183, 184, true, 1032259425, 1235457338, 755478680, 1066140983⟩, ⟨243, 244, false, 329793904, 409646894, 223360188, 342987747⟩, ⟨293, 294, true, 139004503, 156284135, 100541356, 143085485⟩, ⟨342, 343, false, 74329097, 80135747, 55750214, 76093188⟩, ⟨390, 391, true, 47077063, 49086129, 36936335, 47902260⟩, ⟨438, 439, false, 32586244, 34159211, 26977698, 33763963⟩, ⟨486, 487, true, 24665447, 26317381, 21492224, 26186598⟩, ⟨534, 535, false, 20427334, 22158442, 18549825, 22116163⟩, ⟨582, 583, true, 18371946, 20229264, 17290995, 20229211⟩, ⟨630, 631, false, 17891274, 20011363, 17413289, 20011363⟩, ⟨677, 678, true, 18193813, 21464069, 19638430, 21478071⟩, ⟨725, 726, false, 20884255, 25145922, 23433655, 25226650⟩, ⟨773, 774, true, 26431281, 32637354, 31128167, 32918221⟩, ⟨821, 822, false, 37676983, 48166275, 47406920, 49136296⟩, ⟨869, 870, true, 62946119, 84945601, 83044243, 89136603⟩, ⟨917, 918, false, 133673687, 199465942, 192570797, 228677076⟩, ⟨965, 966, true, 437321910, 847312193, 790918369, 1268581311⟩]⟩
def r4 : Row := ⟨false, 155820443, 210242388, true, 16230801, 22508425, [⟨59, 60, true, 8171080082, 12400234828, 4912566911, 8678290810⟩, ⟨110, 111, false, 2325208396, 2549638901, 1824013084, 2378288677⟩, ⟨168, 169, true, 1110878416, 1178143855, 912542533, 1130089782⟩, ⟨232, 233, false, 491381957, 566151447, 370036060, 505324572⟩, ⟨291, 292, true, 194570925, 232858724, 136273194, 201450656⟩, ⟨341, 342, false, 92499213, 101500136, 68509929, 94907869⟩, ⟨389, 390, true, 55564934, 57847242, 43912431, 56509661⟩, ⟨438, 439, false, 37321365, 38697298, 29784690, 37998477⟩, ⟨486, 487, true, 27497657, 29085062, 23374689, 28849648⟩, ⟨534, 535, false, 22354821, 24073435, 19948590, 24001005⟩, ⟨582, 583, true, 19841339, 21721981, 18437410, 21713808⟩, ⟨630, 631, false, 19135495, 21305366, 18448003, 21305366⟩, ⟨677, 678, true, 19329445, 22711543, 20713035, 22716130⟩, ⟨725, 726, false, 22062702, 26482760, 24619355, 26558690⟩, ⟨773, 774, true, 27802690, 34249917, 32606312, 34526860⟩, ⟨821, 822, false, 39502541, 50410586, 49602746, 51396445⟩, ⟨869, 870, true, 65835346, 88729664, 86755615, 93045071⟩, ⟨917, 918, false, 139565279, 208072045, 200897635, 238403517⟩, ⟨965, 966, true, 456077845, 883165391, 824427287, 1321896441⟩]⟩
def r5 : Row := ⟨false, 104348140, 142226716, true, 17110994, 23724963, [⟨59, 60, true, 5275714205, 8234935487, 3034602024, 5628207164⟩, ⟨108, 109, false, 1458194507, 1646914637, 1084114078, 1499199886⟩, ⟨158, 159, true, 771047331, 809145240, 690467919, 804795089⟩, ⟨216, 217, false, 525775601, 541377848, 460305410, 536208038⟩, ⟨280, 281, true, 290077226, 321462688, 226077859, 296912399⟩, ⟨339, 340, false, 131321249, 153128385, 94106717, 135540718⟩, ⟨389, 390, true, 68803065, 74307109, 51828491, 70429420⟩, ⟨437, 438, false, 44607370, 46255143, 35863939, 45449916⟩, ⟨485, 486, true, 31280538, 33377126, 27395775, 33220740⟩, ⟨534, 535, false, 25270558, 26932927, 21971180, 26795454⟩, ⟨582, 583, true, 21996010, 23896339, 20065551, 23859503⟩, ⟨629, 630, false, 20236821, 23140431, 20620143, 23140431⟩, ⟨677, 678, true, 20931963, 24455446, 22203243, 24455584⟩, ⟨725, 726, false, 23703930, 28331327, 26249125, 28399113⟩, ⟨773, 774, true, 29693671, 36461358, 34624409, 36730206⟩, ⟨821, 822, false, 42000754, 53469310, 52515938, 54472577⟩, ⟨869, 870, true, 69766927, 93863549, 91792516, 98339335⟩, ⟨917, 918, false, 147550099, 219711853, 212162125, 251540393⟩, ⟨965, 966, true, 481430921, 931567733, 869670186, 1393826330⟩]⟩
def r6 : Row := ⟨false, 75350006, 103288998, true, 18264193, 25318192, [⟨58, 59, true, 3985234829, 6202281151, 2307367693, 4249332304⟩, ⟨107, 108, false, 1018356785, 1162797033, 743125614, 1048962052⟩, ⟨156, 157, true, 506376638, 523376504, 415675716, 514684962⟩, ⟨206, 207, false, 338669868, 375586222, 342546256, 375586222⟩, ⟨264, 265, true, 292083952, 309405963, 276021030, 309089889⟩, ⟨328, 329, false, 195854009, 211256061, 156391366, 199799645⟩, ⟨387, 388, true, 98706547, 112872593, 71936583, 101640133⟩, ⟨436, 437, false, 57387050, 60033841, 45279210, 58403684⟩, ⟨485, 486, true, 38670575, 40359882, 31838983, 39847135⟩, ⟨533, 534, false, 29070436, 31283052, 26017948, 31189980⟩, ⟨581, 582, true, 24471025, 27037041, 23275667, 27036943⟩, ⟨629, 630, false, 22728343, 25714790, 22718998, 25714790⟩, ⟨677, 678, true, 23164184, 26853291, 24229416, 26853413⟩, ⟨725, 726, false, 25949053, 30835551, 28438848, 30889504⟩, ⟨773, 774, true, 32245503, 39423802, 37311569, 39676891⟩, ⟨821, 822, false, 45337790, 57532714, 56369206, 58551661⟩, ⟨869, 870, true, 74979106, 100642578, 98446368, 105315341⟩, ⟨917, 918, false, 158078946, 235018307, 226979216, 268783713⟩, ⟨965, 966, true, 514745285, 995061845, 929029089, 1488103281⟩]⟩
def r7 : Row := ⟨false, 57463428, 79047263, true, 19755092, 27376912, [⟨58, 59, true, 3002870714, 4716018286, 1714717210, 3206412809⟩, ⟨107, 108, false, 747554681, 872741159, 530997531, 772355796⟩, ⟨155, 156, true, 360724776, 374805569, 289367860, 366540864⟩, ⟨204, 205, false, 225548588, 243374587, 208313058, 242992934⟩, ⟨254, 255, true, 186562802, 215861874, 203657425, 216269825⟩, ⟨312, 313, false, 189069398, 205338344, 188564949, 205337502⟩, ⟨376, 377, true, 147266751, 156025154, 119784443, 149849070⟩, ⟨435, 436, false, 81316571, 91541801, 60056099, 83576534⟩, ⟨484, 485, true, 50901330, 52863044, 40597327, 51723317⟩, ⟨533, 534, false, 36356218, 38209043, 30573901, 37837536⟩, ⟨581, 582, true, 29234195, 31722470, 26716841, 31672373⟩, ⟨629, 630, false, 26345462, 29409909, 25626295, 29409903⟩, ⟨677, 678, true, 26296583, 30158540, 26979120, 30158630⟩, ⟨725, 726, false, 29022519, 34218876, 31364301, 34249018⟩, ⟨773, 774, true, 35675496, 43366933, 40859458, 43590315⟩, ⟨821, 822, false, 49762751, 62882014, 61412727, 63908664⟩, ⟨869, 870, true, 81822141, 109496395, 107141641, 114401115⟩, ⟨917, 918, false, 171805253, 254902172, 246234463, 291129868⟩, ⟨965, 966, true, 557979920, 1077282375, 1005910541, 1610049953⟩]⟩
def r8 : Row := ⟨false, 45687586, 62993618, true, 21676085, 30027752, [⟨58, 59, true, 2368422980, 3741813298, 1340205702, 2531312762⟩, ⟨107, 108, false, 579553626, 686104833, 404711836, 599920730⟩, ⟨155, 156, true, 271555530, 286685707, 211696105, 276870167⟩, ⟨203, 204, false, 164994772, 176214778, 146879986, 175551782⟩, ⟨252, 253, true, 125641074, 140286572, 124811761, 140285849⟩, ⟨302, 303, false, 120375875, 143353757, 138466026, 144386821⟩, ⟨360, 361, true, 137780452, 152942046, 143140172, 152942046⟩, ⟨424, 425, false, 121366996, 126944157, 100213705, 123236402⟩, ⟨482, 483, true, 74586923, 80794143, 57474937, 76263588⟩, ⟨532, 533, false, 48767080, 50430063, 39335395, 49554981⟩, ⟨581, 582, true, 36944374, 39096715, 31721773, 38824501⟩, ⟨629, 630, false, 31803466, 34815581, 29721919, 34812405⟩, ⟨677, 678, true, 30800990, 34794725, 30751787, 34794725⟩, ⟨725, 726, false, 33293957, 38837646, 35297063, 38837972⟩, ⟨773, 774, true, 40326194, 48644124, 45556370, 48830380⟩, ⟨821, 822, false, 55655413, 69938175, 68015063, 70952520⟩, ⟨869, 870, true, 90816803, 121055254, 118501952, 126219773⟩, ⟨917, 918, false, 189683086, 280680841, 271210070, 320010587⟩, ⟨965, 966, true, 613961187, 1183442669, 1105203419, 1767277702⟩]⟩
def r9 : Row := ⟨false, 37549041, 51854936, true, 24160797, 33453523, [⟨58, 59, true, 1935678987, 3070694928, 1088491918, 2070131934⟩, ⟨107, 108, false, 468080254, 559335915, 323145830, 485147434⟩, ⟨155, 156, true, 215027790, 229553697, 164584552, 219709943⟩, ⟨203, 204, false, 130136607, 136539327, 109337990, 135104471⟩, ⟨251, 252, true, 93096829, 102547285, 88940700, 102546360⟩, ⟨300, 301, false, 81811956, 93807810, 85377456, 93807810⟩, ⟨350, 351, true, 87678267, 106631012, 104819759, 108054577⟩, ⟨408, 409, false, 110761756, 125166846, 118936093, 125364315⟩, ⟨471, 472, true, 109710400, 112519552, 94183308, 111159148⟩, ⟨530, 531, false, 71997895, 77163254, 56069655, 73504927⟩, ⟨580, 581, true, 49956656, 51954688, 41161541, 51271451⟩, ⟨628, 629, false, 39547982, 43278854, 37126979, 43278690⟩, ⟨677, 678, true, 37562932, 41612960, 36042012, 41612960⟩, ⟨725, 726, false, 39405830, 45285104, 40669668, 45285391⟩, ⟨773, 774, true, 46759801, 55817205, 51846930, 55966284⟩, ⟨821, 822, false, 63612775, 79347508, 76730290, 80317771⟩, ⟨869, 870, true, 102755853, 136262201, 133462238, 141744615⟩, ⟨917, 918, false, 213131623, 314290744, 303793139, 357512550⟩, ⟨965, 966, true, 686830171, 1321124616, 1234022753, 1970813098⟩]⟩
def r10 : Row := ⟨false, 31712484, 43844820, true, 27406490, 37923452, [⟨58, 59, true, 1628229738, 2590556584, 911505571, 1742125289⟩, ⟨106, 107, false, 404771595, 472485188, 286702681, 418302394⟩, ⟨155, 156, true, 176880980, 190428170, 133706495, 180997503⟩, ⟨203, 204, false, 106645347, 110798206, 86325078, 108986411⟩, ⟨251, 252, true, 74611714, 80313887, 67129185, 80089225⟩, ⟨299, 300, false, 61278687, 69081652, 61396480, 69081499⟩, ⟨348, 349, true, 60057045, 70225731, 64957083, 70298469⟩, ⟨397, 398, false, 67393655, 86082624, 84588908, 88921957⟩, ⟨456, 457, true, 97040403, 111356758, 107221683, 111804706⟩, ⟨519, 520, false, 104406868, 107909703, 92024411, 107102958⟩, ⟨578, 579, true, 75026062, 79656695, 59061074, 76479274⟩, ⟨628, 629, false, 55315841, 57943145, 46654737, 57387420⟩, ⟨676, 677, true, 47096185, 52172187, 45413404, 52172187⟩, ⟨724, 725, false, 46885456, 54622812, 49761654, 54623176⟩, ⟨772, 773, true, 53682364, 65482345, 62026885, 65891009⟩, ⟨821, 822, false, 74615252, 92139264, 88416288, 93062980⟩, ⟨869, 870, true, 118888428, 156570654, 153467092, 162403131⟩, ⟨917, 918, false, 244321995, 358649687, 346831788, 406745700⟩, ⟨965, 966, true, 782801444, 1501599659, 1402955461, 2236967619⟩]⟩
def rows : List Row := [r0, r1, r2, r3, r4, r5, r6, r7, r8, r9, r10]

theorem c0 : cellsOk P (offc P) Z rows 1 0 32 = true := by decide +kernel
theorem c1 : cellsOk P (offc P) Z rows 1 32 32 = true := by decide +kernel
theorem c2 : cellsOk P (offc P) Z rows 1 64 32 = true := by decide +kernel
theorem c3 : cellsOk P (offc P) Z rows 1 96 32 = true := by decide +kernel
theorem c4 : cellsOk P (offc P) Z rows 1 128 32 = true := by decide +kernel
theorem c5 : cellsOk P (offc P) Z rows 1 160 32 = true := by decide +kernel
theorem c6 : cellsOk P (offc P) Z rows 1 192 32 = true := by decide +kernel
theorem c7 : cellsOk P (offc P) Z rows 1 224 32 = true := by decide +kernel

end Gslib.Lob.Cert22
