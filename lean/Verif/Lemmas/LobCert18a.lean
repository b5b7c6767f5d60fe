import Verif.Lemmas.LobCertified

/-! Certificate for `lob_bnd_setup` with n = 18, part 1; generated. The data are found numerically, the kernel checks them. -/

namespace Gslib.Lob.Cert18
open Gslib.Lob Gslib.Poly
set_option maxRecDepth 100000
set_option Elab.async false

def P : Par := ⟨18, 1024, 17, 9, 29, 2514, 2344, 3096, 2 ^ 3095⟩
def Z : List ℕ := [0, 23894442587801457135481075658299933238186557280810, 79350814652466126162145374568722576437646513810960, 164406464781909786286353637672062742566329240834180, 276320670716757318693789634697929320850474795845240, 411495165681338238826464106806440530999163210683780, 565584963087876024657712863259325204150241554836310, 733637347121719015832334667974404057934863810681740, 910250906515347888977354989911438265039396098958875, 1089749093484652111022645010088561734960603901041125, 1266362652878280984167665332025595942065136189318260, 1434415036912123975342287136740674795849758445163690, 1588504834318661761173535893193559469000836789316220, 1723679329283242681306210365302070679149525204154760, 1835593535218090213713646362327937257433670759165820, 1920649185347533873837854625431277423562353486189040, 1976105557412198542864518924341700066761813442719190, 2000000000000000000000000000000000000000000000000000]
def r0 : Row := ⟨false, 547313645, 636399057, true, 9118265, 12478413, [⟨118, 120, true, 2514327097, 4720130403, 1197265398, 2867244020⟩, ⟨182, 183, false, 431810204, 591529460, 256226825, 450460145⟩, ⟨242, 243, true, 139885009, 165593941, 94657000, 143957847⟩, ⟨302, 303, false, 61110498, 67195403, 44120073, 62445920⟩, ⟨362, 363, true, 33077002, 35249741, 24697826, 33669074⟩, ⟨421, 422, false, 21387311, 22193797, 16770472, 21720133⟩, ⟨480, 481, true, 15197476, 16145874, 12865963, 16007993⟩, ⟨539, 540, false, 12234357, 13321386, 11050480, 13290491⟩, ⟨598, 599, true, 11059564, 12356615, 10599606, 12356608⟩, ⟨657, 658, false, 11213025, 12895855, 11405785, 12895883⟩, ⟨715, 717, true, 12398233, 15280993, 13957347, 15305700⟩, ⟨774, 775, false, 16251833, 20819495, 20337326, 21201839⟩, ⟨833, 834, true, 25385728, 34597766, 33976627, 36345582⟩, ⟨892, 893, false, 51034114, 77528473, 75322556, 89565610⟩, ⟨952, 953, true, 172353624, 332770456, 315143482, 501808141⟩]⟩
def r1 : Row := ⟨false, 401361452, 476181884, true, 9228253, 12628294, [⟨104, 105, true, 3829338770, 6175586679, 2143699880, 4043604207⟩, ⟨180, 181, false, 528122458, 753859006, 308652411, 552450464⟩, ⟨242, 243, true, 151389720, 185264417, 99415568, 156270531⟩, ⟨302, 303, false, 64593106, 72061411, 45948858, 66104915⟩, ⟨361, 362, true, 35075551, 36946322, 26747822, 35637216⟩, ⟨421, 422, false, 22136500, 22976656, 17223057, 22435755⟩, ⟨480, 481, true, 15658215, 16594067, 13158191, 16434053⟩, ⟨539, 540, false, 12537722, 13621024, 11266627, 13585984⟩, ⟨598, 599, true, 11291233, 12592861, 10782250, 12592852⟩, ⟨657, 658, false, 11417031, 13111629, 11582670, 13111655⟩, ⟨715, 716, true, 12600630, 15445977, 14478126, 15535678⟩, ⟨774, 775, false, 16492817, 21111335, 20609797, 21493247⟩, ⟨833, 834, true, 25734621, 35053170, 34425516, 36813757⟩, ⟨892, 893, false, 51696635, 78504218, 76272926, 90669491⟩, ⟨952, 953, true, 174500494, 336839348, 319002130, 507885050⟩]⟩
def r2 : Row := ⟨false, 212531096, 264429454, true, 9494044, 12990422, [⟨85, 86, true, 4709346625, 6985977767, 2938584162, 4925006214⟩, ⟨165, 166, false, 813481555, 1054918293, 548272939, 841280790⟩, ⟨240, 241, true, 197745939, 258091498, 125046244, 205132002⟩, ⟨301, 302, false, 76155166, 86772340, 53489540, 78072749⟩, ⟨361, 362, true, 38860694, 41614075, 28973200, 39576119⟩, ⟨420, 421, false, 24044497, 25030916, 19173910, 24563910⟩, ⟨480, 481, true, 16839556, 17733744, 13886896, 17513124⟩, ⟨539, 540, false, 13301897, 14376647, 11801071, 14324083⟩, ⟨598, 599, true, 11867581, 13177090, 11230796, 13177077⟩, ⟨657, 658, false, 11920035, 13641099, 12014799, 13641124⟩, ⟨715, 716, true, 13096620, 16011283, 14976564, 16096862⟩, ⟨774, 775, false, 17080485, 21821137, 21271068, 22201338⟩, ⟨833, 834, true, 26582415, 36157677, 35514400, 37948150⟩, ⟨892, 893, false, 53302507, 80866226, 78573751, 93339320⟩, ⟨952, 953, true, 179695255, 346677358, 328332322, 522572369⟩]⟩
def r3 : Row := ⟨false, 107578751, 140649293, true, 9932822, 13588041, [⟨75, 76, true, 3603952973, 5304412336, 2241820006, 3767411678⟩, ⟨146, 147, false, 909249850, 1040900972, 694234338, 928757589⟩, ⟨225, 226, true, 305065984, 359901373, 222889844, 312719639⟩, ⟨299, 300, false, 103335290, 126590127, 69445640, 106536457⟩, ⟨360, 361, true, 47365386, 51755491, 34696137, 48345684⟩, ⟨420, 421, false, 27731455, 29033852, 21353151, 28145878⟩, ⟨479, 480, true, 18706594, 19818046, 15781066, 19630333⟩, ⟨538, 539, false, 14349209, 15714637, 13178093, 15689668⟩, ⟨598, 599, true, 12873250, 14194644, 11993967, 14184710⟩, ⟨656, 657, false, 12405230, 14541100, 13095965, 14541141⟩, ⟨715, 716, true, 13937335, 16962941, 15810762, 17040404⟩, ⟨774, 775, false, 18067377, 23007185, 22371535, 23383803⟩, ⟨833, 834, true, 27996615, 37993509, 37324826, 39830254⟩, ⟨892, 893, false, 55968665, 84778182, 82385138, 97753752⟩, ⟨952, 953, true, 188291949, 362934967, 343752367, 546825678⟩]⟩
def r4 : Row := ⟨false, 64944122, 86611748, true, 10575942, 14463540, [⟨73, 74, true, 2221062655, 3389644240, 1296691033, 2332889778⟩, ⟨135, 136, false, 659205617, 712031575, 517833527, 670408848⟩, ⟨206, 207, true, 328367578, 341819597, 273134303, 332168246⟩, ⟨285, 286, false, 154919102, 174294902, 117677551, 158107251⟩, ⟨358, 359, true, 65848395, 77305261, 46057441, 67608271⟩, ⟨419, 420, false, 34592731, 36872087, 26114505, 35196541⟩, ⟨479, 480, true, 22590665, 23469855, 17956961, 23020450⟩, ⟨538, 539, false, 16613835, 17906776, 14700370, 17832458⟩, ⟨597, 598, true, 14131010, 15796615, 13601008, 15796598⟩, ⟨656, 657, false, 13723076, 15933695, 14240744, 15933729⟩, ⟨715, 716, true, 15221195, 18400630, 17059406, 18463035⟩, ⟨774, 775, false, 19552653, 24778344, 24004469, 25153022⟩, ⟨833, 834, true, 30102882, 40712646, 40007615, 42610135⟩, ⟨892, 893, false, 59910784, 90540580, 88001120, 104239688⟩, ⟨952, 953, true, 200939568, 386801426, 366392922, 582389578⟩]⟩
def r5 : Row := ⟨false, 43891199, 59108837, true, 11473186, 15684116, [⟨72, 73, true, 1523408654, 2357822579, 869954772, 1602955055⟩, ⟨133, 134, false, 413055138, 463250447, 303585187, 422246894⟩, ⟨194, 195, true, 221229189, 236287886, 204896882, 235775929⟩, ⟨266, 267, false, 160553259, 166682250, 142559655, 165419995⟩, ⟨344, 345, true, 98461676, 106065673, 77871312, 100056751⟩, ⟨417, 418, false, 48930625, 55636627, 35253833, 50082523⟩, ⟨478, 479, true, 28880851, 30265229, 22336381, 29309483⟩, ⟨538, 539, false, 20465676, 21555295, 17033546, 21310678⟩, ⟨597, 598, true, 16665524, 18294693, 15434494, 18274693⟩, ⟨656, 657, false, 15734262, 18011357, 15914030, 18011377⟩, ⟨715, 716, true, 17122039, 20495611, 18854030, 20540972⟩, ⟨774, 775, false, 21705136, 27316248, 26322635, 27680512⟩, ⟨833, 834, true, 33109469, 44563290, 43809409, 46530938⟩, ⟨892, 893, false, 65479492, 98637017, 95895301, 113319398⟩, ⟨952, 953, true, 218679133, 420172991, 398057629, 632036914⟩]⟩
def r6 : Row := ⟨false, 32042741, 43389439, true, 12701537, 17353476, [⟨72, 73, true, 1090047282, 1713106580, 607250339, 1149186473⟩, ⟨132, 133, false, 289756536, 330399123, 207519212, 296825359⟩, ⟨192, 193, true, 147872802, 153956880, 122530986, 151723171⟩, ⟨253, 254, false, 101880810, 116477529, 107924913, 116517789⟩, ⟨325, 326, true, 95551160, 102762236, 92631708, 102761887⟩, ⟨403, 404, false, 72973592, 76522378, 59506943, 73912751⟩, ⟨476, 477, true, 41409134, 45853942, 30573513, 42274646⟩, ⟨537, 538, false, 27204177, 28142128, 21502082, 27544194⟩, ⟨596, 597, true, 20443808, 22332506, 18818056, 22299122⟩, ⟨656, 657, false, 18865929, 21165115, 18354139, 21165115⟩, ⟨715, 716, true, 19952399, 23543662, 21412635, 23566293⟩, ⟨774, 775, false, 24812872, 30921995, 29572537, 31256020⟩, ⟨833, 834, true, 37358424, 49944786, 49127785, 51980939⟩, ⟨892, 893, false, 73235365, 109829752, 106815091, 125807640⟩, ⟨952, 953, true, 243144073, 466000182, 441554682, 700062698⟩]⟩
def r7 : Row := ⟨false, 24753206, 33631618, true, 14380658, 19632375, [⟨72, 73, true, 831505022, 1319064924, 456239400, 877654086⟩, ⟨132, 133, false, 215364002, 251179978, 149865819, 221166680⟩, ⟨191, 192, true, 107681672, 111586093, 85454999, 109053981⟩, ⟨251, 252, false, 69444637, 76071013, 65511783, 76022144⟩, ⟨312, 313, true, 59896926, 71882270, 69299438, 72446161⟩, ⟨384, 385, false, 67440668, 75024098, 69850481, 75024098⟩, ⟨462, 463, true, 61585611, 63438083, 51524550, 62206580⟩, ⟨534, 535, false, 40168720, 42745569, 31126762, 40816280⟩, ⟨595, 596, true, 27699695, 29475897, 24135049, 29296431⟩, ⟨655, 656, false, 23453914, 26173274, 22677638, 26173274⟩, ⟨715, 716, true, 24309273, 28078083, 25104383, 28078195⟩, ⟨774, 775, false, 29387602, 36109454, 34158790, 36379895⟩, ⟨833, 834, true, 43426571, 57511817, 56616226, 59626768⟩, ⟨892, 893, false, 84089763, 125334398, 121954385, 142985423⟩, ⟨952, 953, true, 276923493, 528907163, 501288986, 793156988⟩]⟩
def r8 : Row := ⟨false, 19976553, 27201576, true, 16700909, 22775592, [⟨71, 72, true, 702652358, 1104244853, 392339598, 740735252⟩, ⟨131, 132, false, 174213833, 201090150, 122468320, 178739424⟩, ⟨191, 192, true, 82274262, 86564213, 63346178, 83553160⟩, ⟨250, 251, false, 51788686, 55827004, 46449306, 55632615⟩, ⟨310, 311, true, 41469474, 47392452, 42566516, 47392452⟩, ⟨371, 372, false, 42026688, 52247071, 51680182, 53256715⟩, ⟨443, 444, true, 54686862, 62643910, 59830068, 62849057⟩, ⟨521, 522, false, 57615235, 59513179, 50108357, 58935958⟩, ⟨593, 594, true, 42884304, 44877354, 33992118, 43471203⟩, ⟨654, 655, false, 32189340, 34903153, 29484288, 34841388⟩, ⟨714, 715, true, 30612640, 35171373, 31437603, 35171480⟩, ⟨773, 774, false, 35138653, 43545291, 41585036, 43973916⟩, ⟨833, 834, true, 52337667, 68382267, 67394606, 70506729⟩, ⟨892, 893, false, 99582252, 147151937, 143282820, 166920676⟩, ⟨952, 953, true, 324245425, 616331738, 584353890, 921991561⟩]⟩
def rows : List Row := [r0, r1, r2, r3, r4, r5, r6, r7, r8]

theorem c0 : cellsOk P (offc P) Z rows 1 0 32 = true := by decide +kernel
theorem c1 : cellsOk P (offc P) Z rows 1 32 32 = true := by decide +kernel
theorem c2 : cellsOk P (offc P) Z rows 1 64 32 = true := by decide +kernel
theorem c3 : cellsOk P (offc P) Z rows 1 96 32 = true := by decide +kernel
theorem c4 : cellsOk P (offc P) Z rows 1 128 32 = true := by decide +kernel
theorem c5 : cellsOk P (offc P) Z rows 1 160 32 = true := by decide +kernel
theorem c6 : cellsOk P (offc P) Z rows 1 192 32 = true := by decide +kernel
theorem c7 : cellsOk P (offc P) Z rows 1 224 32 = true := by decide +kernel

end Gslib.Lob.Cert18
