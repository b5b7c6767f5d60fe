import Verif.Lemmas.LobCertified

/-! Certificate for `lob_bnd_setup` with n = 20, part 1; generated. The data are found numerically, the kernel checks them. -/

namespace Gslib.Lob.Cert20
open Gslib.Lob Gslib.Poly
set_option maxRecDepth 100000
set_option Elab.async false

def P : Par := ⟨20, 1024, 15, 8, 26, 2851, 2681, 3440, 2 ^ 3439⟩
def Z : List ℕ := [0, 19256295106085828074553561415769084770089376873750, 64065501187334564283818415069373070084426166818950, 133122021910049858690152785383714786037088711683010, 224631739047944129585682472405308656627278140523470, 336223597709688710153596677028841147524254258008510, 465007135968113738351864038171016016993148430862480, 607646816286090700613525296184175633334796670701090, 760448294077013504817598643072911928058482190072620, 919454062761178162024055481840445536977607129907092, 1080545937238821837975944518159554463022392870092908, 1239551705922986495182401356927088071941517809927380, 1392353183713909299386474703815824366665203329298910, 1534992864031886261648135961828983983006851569137520, 1663776402290311289846403322971158852475745741991490, 1775368260952055870414317527594691343372721859476530, 1866877978089950141309847214616285213962911288316990, 1935934498812665435716181584930626929915573833181050, 1980743704893914171925446438584230915229910623126250, 2000000000000000000000000000000000000000000000000000]
def r0 : Row := ⟨false, 885500050, 1029947773, true, 11875919, 16262334, [⟨106, 107, true, 5239815958, 9290219489, 2567917109, 5638352012⟩, ⟨163, 164, false, 848817774, 1164420252, 507031157, 889701823⟩, ⟨217, 218, true, 266067817, 317338484, 179568652, 274913828⟩, ⟨271, 272, false, 111989169, 124769502, 79956473, 114899605⟩, ⟨324, 325, true, 59209232, 62786893, 44801505, 60334273⟩, ⟨377, 378, false, 36097072, 37552625, 28624999, 36842405⟩, ⟨430, 431, true, 24164671, 25668811, 20448542, 25446452⟩, ⟨483, 484, false, 18106951, 19604528, 16128580, 19543261⟩, ⟨536, 537, true, 14998691, 16535963, 13947513, 16525260⟩, ⟨589, 590, false, 13646124, 15315023, 13192977, 15315012⟩, ⟨642, 643, true, 13618154, 15566941, 13681435, 15566959⟩, ⟨695, 696, false, 14963974, 17483509, 15678489, 17483612⟩, ⟨747, 748, true, 17576406, 21821761, 20667209, 21998137⟩, ⟨800, 801, false, 24314907, 31287692, 30658667, 31892743⟩, ⟨853, 854, true, 39687445, 53976072, 52900861, 56588287⟩, ⟨906, 907, false, 82815605, 124795377, 120922507, 143114348⟩, ⟨959, 960, true, 267260180, 525535779, 493902486, 795875120⟩]⟩
def r1 : Row := ⟨false, 648636845, 769790236, true, 11991150, 16419587, [⟨93, 94, true, 7705211256, 12444728142, 4345409913, 8186662380⟩, ⟨161, 162, false, 1049878051, 1494887248, 621648184, 1103227876⟩, ⟨217, 218, true, 287694636, 354769812, 188454354, 298266826⟩, ⟨271, 272, false, 118231238, 133706353, 83169576, 121509657⟩, ⟨324, 325, true, 61650003, 65777096, 46260262, 62882693⟩, ⟨377, 378, false, 37471279, 38850279, 29382227, 38036868⟩, ⟨430, 431, true, 24880560, 26355094, 20897172, 26104913⟩, ⟨483, 484, false, 18540602, 20028825, 16428929, 19960449⟩, ⟨536, 537, true, 15298366, 16838986, 14172919, 16824579⟩, ⟨589, 590, false, 13879740, 15556198, 13381839, 15556185⟩, ⟨642, 643, true, 13822595, 15782901, 13858217, 15782917⟩, ⟨695, 696, false, 15165053, 17703445, 15864549, 17703548⟩, ⟨747, 748, true, 17793322, 22076455, 20897616, 22252056⟩, ⟨800, 801, false, 24592833, 31629700, 30982108, 32236851⟩, ⟨853, 854, true, 40114349, 54537142, 53452559, 57167186⟩, ⟨906, 907, false, 83666700, 126047004, 122137982, 144526204⟩, ⟨959, 960, true, 269923708, 530693026, 498755416, 803624558⟩]⟩
def r2 : Row := ⟨false, 342704758, 426508757, true, 12268146, 16797558, [⟨76, 77, true, 9444386003, 14035353199, 5921183345, 9927932916⟩, ⟨148, 149, false, 1584963239, 2069853568, 1065364226, 1646536904⟩, ⟨215, 216, true, 378827679, 495923311, 240602515, 394678236⟩, ⟨270, 271, false, 139622122, 160962175, 97323513, 143720773⟩, ⟨324, 325, true, 68112195, 74020646, 49963052, 69657200⟩, ⟨377, 378, false, 40464012, 42284067, 31290291, 41123926⟩, ⟨430, 431, true, 26716464, 28118208, 22015898, 27772790⟩, ⟨483, 484, false, 19632645, 21103970, 17171116, 21002125⟩, ⟨536, 537, true, 16043400, 17588312, 14725890, 17564209⟩, ⟨589, 590, false, 14455165, 16147589, 13842548, 16147570⟩, ⟨642, 643, true, 14322705, 16309812, 14287578, 16309812⟩, ⟨695, 696, false, 15654404, 18237179, 16314938, 18237281⟩, ⟨747, 748, true, 18319308, 22692697, 21454083, 22866153⟩, ⟨800, 801, false, 25264747, 32455182, 31761754, 33067002⟩, ⟨853, 854, true, 41144142, 55888962, 54781951, 58561183⟩, ⟨906, 907, false, 85716490, 129058979, 125063176, 147921876⟩, ⟨959, 960, true, 276332008, 543094794, 510425866, 822255060⟩]⟩
def r3 : Row := ⟨false, 172978873, 226193489, true, 12721014, 17415384, [⟨67, 68, true, 7226240662, 10645984105, 4522182349, 7591773302⟩, ⟨131, 132, false, 1774981679, 2046458990, 1349970343, 1818778752⟩, ⟨202, 203, true, 576927765, 689167280, 417594511, 593870976⟩, ⟨268, 269, false, 190477343, 234929431, 127884749, 197184462⟩, ⟨323, 324, true, 83004071, 91999004, 60030213, 85069369⟩, ⟨377, 378, false, 46031132, 48954426, 34681534, 46924311⟩, ⟨430, 431, true, 30118139, 31352642, 23973003, 30786574⟩, ⟨483, 484, false, 21584211, 23002456, 18448532, 22832639⟩, ⟨536, 537, true, 17341881, 18880757, 15664926, 18838127⟩, ⟨589, 590, false, 15440218, 17151328, 14616692, 17151299⟩, ⟨642, 643, true, 15167654, 17200743, 15003180, 17200743⟩, ⟨694, 695, false, 15886857, 19084408, 17544615, 19125518⟩, ⟨747, 748, true, 19193355, 23712522, 22371846, 23881594⟩, ⟨800, 801, false, 26375028, 33815047, 33042957, 34433329⟩, ⟨853, 854, true, 42838740, 58108537, 56965167, 60847623⟩, ⟨906, 907, false, 89079624, 133993264, 129855961, 153478985⟩, ⟨959, 960, true, 286826141, 563384622, 529520695, 852720838⟩]⟩
def r4 : Row := ⟨false, 104014080, 138736291, true, 13375285, 18307691, [⟨65, 66, true, 4492259675, 6837825523, 2657301482, 4742075860⟩, ⟨121, 122, false, 1289110625, 1397644118, 1011525280, 1314068477⟩, ⟨185, 186, true, 624749617, 656155256, 514458321, 633682082⟩, ⟨255, 256, false, 288995219, 324495830, 220971052, 295534142⟩, ⟨321, 322, true, 115749525, 137396259, 80455082, 119336399⟩, ⟨376, 377, false, 57308889, 62074641, 42476958, 58561320⟩, ⟨429, 430, true, 35601892, 37018529, 28425218, 36347215⟩, ⟨483, 484, false, 24832146, 26113444, 20442762, 25794170⟩, ⟨536, 537, true, 19415726, 20915006, 17102128, 20833959⟩, ⟨589, 590, false, 16968758, 18697902, 15782705, 18687675⟩, ⟨642, 643, true, 16451820, 18541350, 16067678, 18541350⟩, ⟨694, 695, false, 17080498, 20410581, 18685652, 20444064⟩, ⟨747, 748, true, 20487881, 25213432, 23715444, 25374155⟩, ⟨800, 801, false, 28005290, 35802443, 34908351, 36427418⟩, ⟨853, 854, true, 45311239, 61336051, 60140848, 64167080⟩, ⟨906, 907, false, 93964591, 141143767, 136802876, 161519387⟩, ⟨959, 960, true, 302024703, 592728272, 557139333, 896749341⟩]⟩
def r5 : Row := ⟨false, 69940934, 94202495, true, 14270305, 19527799, [⟨65, 66, true, 2913426715, 4561889860, 1646298764, 3087760421⟩, ⟨119, 120, false, 808416277, 905450293, 597416006, 828305283⟩, ⟨174, 175, true, 425222151, 451831642, 388796850, 450451803⟩, ⟨238, 239, false, 297114357, 309103007, 265488284, 307136366⟩, ⟨309, 310, true, 171643471, 188954041, 132994125, 175185957⟩, ⟨374, 375, false, 81133774, 93729701, 57762893, 83406769⟩, ⟨429, 430, true, 44639848, 47621144, 33685346, 45515306⟩, ⟨482, 483, false, 29819148, 31304912, 24578737, 30910345⟩, ⟨535, 536, true, 22187628, 24102421, 20026362, 24043994⟩, ⟨588, 589, false, 18765197, 21013376, 18119583, 21013338⟩, ⟨641, 642, true, 17778380, 20484687, 18170789, 20484703⟩, ⟨694, 695, false, 18800307, 22298072, 20292563, 22318347⟩, ⟨747, 748, true, 22322075, 27320910, 25587797, 27466100⟩, ⟨800, 801, false, 30286896, 38565458, 37487895, 39194318⟩, ⟨853, 854, true, 48740666, 65791408, 64526667, 68739078⟩, ⟨906, 907, false, 100697471, 150967280, 146349522, 172541071⟩, ⟨959, 960, true, 322887572, 632927577, 594981639, 957005117⟩]⟩
def r6 : Row := ⟨false, 50744723, 68722821, true, 15464549, 21154844, [⟨64, 65, true, 2196942943, 3435831270, 1246215779, 2327912860⟩, ⟨118, 119, false, 565613408, 642190024, 408802568, 580683182⟩, ⟨172, 173, true, 281657991, 293221770, 233198427, 288943955⟩, ⟨227, 228, false, 190395054, 215177047, 197438628, 215177047⟩, ⟨291, 292, true, 169622321, 182312435, 164148186, 182311431⟩, ⟨361, 362, false, 122465514, 129027367, 99554058, 124306261⟩, ⟨427, 428, true, 63918232, 72317300, 46337405, 65563299⟩, ⟨481, 482, false, 39257968, 40731042, 31006752, 39826612⟩, ⟨535, 536, true, 27618089, 29256127, 23404179, 29007494⟩, ⟨588, 589, false, 22315797, 24515101, 20700569, 24495051⟩, ⟨641, 642, true, 20522475, 23300055, 20414851, 23300055⟩, ⟨694, 695, false, 21265396, 24957072, 22522378, 24957201⟩, ⟨747, 748, true, 24889992, 30234625, 28149148, 30351006⟩, ⟨800, 801, false, 33427188, 42333851, 40980170, 42957852⟩, ⟨853, 854, true, 53403115, 71809496, 70454539, 74895841⟩, ⟨906, 907, false, 109772828, 164150593, 159166418, 187288121⟩, ⟨959, 960, true, 350854771, 686670973, 645585048, 1037452562⟩]⟩
def r7 : Row := ⟨false, 38912542, 52876680, true, 17044410, 23305556, [⟨64, 65, true, 1664518289, 2627127923, 930685178, 1766006258⟩, ⟨118, 119, false, 417609493, 484961921, 293502494, 429910974⟩, ⟨171, 172, true, 203727627, 211030520, 162358534, 206589517⟩, ⟨225, 226, false, 128201142, 139842044, 119802634, 139708074⟩, ⟨280, 281, true, 107891907, 127382386, 121087351, 127896005⟩, ⟨344, 345, false, 113798552, 125893931, 116580548, 125893931⟩, ⟨414, 415, true, 96315171, 99917156, 79881126, 97522500⟩, ⟨479, 480, false, 57075584, 62021179, 43255350, 58265237⟩, ⟨534, 535, true, 36990922, 38436414, 29857758, 37797919⟩, ⟨588, 589, false, 28138878, 30093146, 24501196, 29932668⟩, ⟨641, 642, true, 24720242, 27508606, 23620380, 27508590⟩, ⟨694, 695, false, 24862483, 28743077, 25629100, 28743182⟩, ⟨747, 748, true, 28515492, 34277554, 31650943, 34367512⟩, ⟨800, 801, false, 37758040, 47466985, 45689353, 48065539⟩, ⟨853, 854, true, 59727053, 79901384, 78431847, 83140087⟩, ⟨906, 907, false, 121941354, 181724183, 176260718, 206867691⟩, ⟨959, 960, true, 388080675, 757951665, 712720751, 1143957928⟩]⟩
def r8 : Row := ⟨false, 31134714, 42401513, true, 19138919, 26153885, [⟨64, 65, true, 1321185533, 2097785313, 731770564, 1402913951⟩, ⟨118, 119, false, 325882703, 383830219, 225030010, 336058497⟩, ⟨171, 172, true, 154384056, 162319467, 119432602, 157033502⟩, ⟨224, 225, false, 94597770, 101814842, 84595320, 101478316⟩, ⟨278, 279, true, 73593001, 83246242, 74121385, 83246242⟩, ⟨333, 334, false, 72228033, 87863171, 85621019, 88858637⟩, ⟨397, 398, true, 86719328, 98250348, 92850107, 98384950⟩, ⟨467, 468, false, 83923942, 86127941, 70800774, 84798048⟩, ⟨532, 533, true, 54685878, 58649684, 42018299, 55729957⟩, ⟨587, 588, false, 38069337, 39879210, 31588789, 39408007⟩, ⟨640, 641, true, 30749485, 34119287, 29351876, 34119232⟩, ⟨694, 695, false, 30323073, 34302311, 30035950, 34302311⟩, ⟨747, 748, true, 33766499, 39992514, 36497971, 40039716⟩, ⟨800, 801, false, 43829926, 54542883, 52090909, 55080656⟩, ⟨853, 854, true, 68394782, 90863140, 89250697, 94246082⟩, ⟨906, 907, false, 138364312, 205258193, 199169237, 232948253⟩, ⟨959, 960, true, 437835694, 852774820, 802064502, 1285299680⟩]⟩
def r9 : Row := ⟨false, 25773584, 35153935, true, 21945110, 29964700, [⟨64, 65, true, 1087619171, 1734058580, 598501732, 1155563536⟩, ⟨118, 119, false, 265154881, 315267676, 180942352, 273748146⟩, ⟨171, 172, true, 123165476, 130959399, 93488823, 125523597⟩, ⟨224, 225, false, 75215861, 79426036, 63374259, 78660796⟩, ⟨277, 278, true, 55082944, 61245651, 52959508, 61245300⟩, ⟨331, 332, false, 49792696, 57921830, 52778636, 57921863⟩, ⟨386, 387, true, 55073247, 68496234, 67654387, 69810551⟩, ⟨450, 451, false, 73627160, 85089985, 81809912, 85486975⟩, ⟨520, 521, true, 79210098, 81849664, 68916666, 81089972⟩, ⟨585, 586, false, 57529969, 60946006, 44830369, 58526450⟩, ⟨639, 640, true, 42184674, 45597821, 38317988, 45498991⟩, ⟨693, 694, false, 38102791, 42991004, 37725312, 42991004⟩, ⟨746, 747, true, 40268547, 48228628, 44550099, 48345657⟩, ⟨799, 800, false, 50430212, 63984226, 62183986, 64991040⟩, ⟨852, 853, true, 76561553, 104267085, 102173580, 109467265⟩, ⟨906, 907, false, 160897845, 237213228, 230304907, 268106566⟩, ⟨959, 960, true, 505220599, 980393020, 922370312, 1474916233⟩]⟩
def rows : List Row := [r0, r1, r2, r3, r4, r5, r6, r7, r8, r9]

theorem c0 : cellsOk P (offc P) Z rows 1 0 32 = true := by decide +kernel
theorem c1 : cellsOk P (offc P) Z rows 1 32 32 = true := by decide +kernel
theorem c2 : cellsOk P (offc P) Z rows 1 64 32 = true := by decide +kernel
theorem c3 : cellsOk P (offc P) Z rows 1 96 32 = true := by decide +kernel
theorem c4 : cellsOk P (offc P) Z rows 1 128 32 = true := by decide +kernel
theorem c5 : cellsOk P (offc P) Z rows 1 160 32 = true := by decide +kernel
theorem c6 : cellsOk P (offc P) Z rows 1 192 32 = true := by decide +kernel
theorem c7 : cellsOk P (offc P) Z rows 1 224 32 = true := by decide +kernel

end Gslib.Lob.Cert20
