import Verif.Lemmas.LobCertified

/-! Certificate for `lob_bnd_setup` with n = 24, part 1; generated. The data are found numerically, the kernel checks them. -/

namespace Gslib.Lob.Cert24
open Gslib.Lob Gslib.Poly
set_option maxRecDepth 100000
set_option Elab.async false

def P : Par := ⟨24, 1024, 13, 7, 22, 3526, 3356, 4128, 2 ^ 4127⟩
def Z : List ℕ := [0, 13269446494839116446913261845525024628080207586700, 44251779070113641973022869449355168929266957044260, 92294324886493478004847003533792250791579886121720, 156535929845127959376694962576657714158923899189670, 235829517579506692212624719047706348678939550763100, 328759894735871300164335141812993243425976711053570, 433668642020704687810590455457716229561105002873520, 548683626785677381751781508430377551176911781687510, 671752386624489087966610820640390656298822131227300, 800678746609167332763427460875009269188124408578520, 933162006262771421886358191608322690203776791082372, 1066837993737228578113641808391677309796223208917628, 1199321253390832667236572539124990730811875591421480, 1328247613375510912033389179359609343701177868772700, 1451316373214322618248218491569622448823088218312490, 1566331357979295312189409544542283770438894997126480, 1671240105264128699835664858187006756574023288946430, 1764170482420493307787375280952293651321060449236900, 1843464070154872040623305037423342285841076100810330, 1907705675113506521995152996466207749208420113878280, 1955748220929886358026977130550644831070733042955740, 1986730553505160883553086738154474975371919792413300, 2000000000000000000000000000000000000000000000000000]
def r0 : Row := ⟨false, 977246882, 1144579915, true, 8949806, 12441087, [⟨88, 89, true, 8134806785, 15102304598, 3728413743, 8900158155⟩, ⟨135, 136, false, 1319599816, 1847603236, 753825204, 1397268282⟩, ⟨180, 181, true, 397146503, 483166621, 255293413, 413899762⟩, ⟨225, 226, false, 159433059, 182105724, 107436500, 164994281⟩, ⟨269, 270, true, 80293109, 87059879, 57323643, 82463667⟩, ⟨313, 314, false, 46375152, 48908360, 34399534, 47383122⟩, ⟨357, 358, true, 29571156, 31014417, 22748316, 30403222⟩, ⟨401, 402, false, 20378073, 21651898, 16343715, 21376180⟩, ⟨445, 446, true, 15274667, 16405611, 12634236, 16263431⟩, ⟨488, 489, false, 11929531, 13353388, 10994969, 13350371⟩, ⟨532, 533, true, 10293817, 11625616, 9668857, 11625546⟩, ⟨576, 577, false, 9475583, 10784579, 9045710, 10784558⟩, ⟨620, 621, true, 9293695, 10654165, 9009145, 10654165⟩, ⟨663, 664, false, 9304889, 11232704, 9978164, 11232777⟩, ⟨707, 708, true, 10416391, 12703262, 11392310, 12711977⟩, ⟨751, 752, false, 12582568, 15553606, 14129060, 15592370⟩, ⟨795, 796, true, 16618026, 20946391, 19390916, 21053022⟩, ⟨838, 839, false, 23117611, 31452481, 30825281, 32320448⟩, ⟨882, 883, true, 39539377, 56662916, 55171573, 59893671⟩, ⟨926, 927, false, 85123987, 135236957, 129991670, 156417749⟩, ⟨970, 971, true, 277274084, 582755222, 540268604, 901957962⟩]⟩
def r1 : Row := ⟨false, 714152424, 854234190, true, 9009509, 12523877, [⟨77, 78, true, 12232499054, 20454116906, 6601660008, 13167497906⟩, ⟨134, 135, false, 1565703712, 2328730197, 861077133, 1667576936⟩, ⟨180, 181, true, 428607586, 540525999, 266746104, 448511762⟩, ⟨224, 226, false, 167991375, 195201795, 111379013, 179607145⟩, ⟨269, 270, true, 83464672, 91175137, 59045819, 85821866⟩, ⟨313, 314, false, 47776861, 50580932, 35238361, 48851427⟩, ⟨357, 358, true, 30411656, 31822444, 23205473, 31147347⟩, ⟨401, 402, false, 20840502, 22099477, 16619767, 21802552⟩, ⟨445, 446, true, 15559837, 16688013, 12817104, 16534863⟩, ⟨488, 489, false, 12120420, 13549315, 11136433, 13543636⟩, ⟨532, 533, true, 10435516, 11772238, 9778922, 11772165⟩, ⟨576, 577, false, 9589935, 10905159, 9138226, 10905136⟩, ⟨620, 621, true, 9393680, 10761424, 9093104, 10761424⟩, ⟨663, 664, false, 9396361, 11335974, 10064832, 11336047⟩, ⟨707, 708, true, 10510204, 12811302, 11484626, 12819389⟩, ⟨751, 752, false, 12687715, 15677454, 14237107, 15715850⟩, ⟨795, 796, true, 16748412, 21104314, 19532380, 21211039⟩, ⟨838, 839, false, 23290703, 31680225, 31049288, 32552006⟩, ⟨882, 883, true, 39823144, 57059244, 55558513, 60307147⟩, ⟨926, 927, false, 85715645, 136159791, 130880337, 157472517⟩, ⟨970, 971, true, 279159945, 586672446, 543904051, 907987142⟩]⟩
def r2 : Row := ⟨false, 375400547, 471919949, true, 9152058, 12721538, [⟨63, 64, true, 14929395671, 22866426283, 9015174053, 15866950325⟩, ⟨123, 124, false, 2418496210, 3254076740, 1549612638, 2537352332⟩, ⟨178, 179, true, 573518583, 763493866, 350826843, 602774568⟩, ⟨224, 225, false, 199313730, 234878181, 131966337, 206900566⟩, ⟨268, 269, true, 94633290, 102451904, 68196122, 97137868⟩, ⟨313, 314, false, 51383018, 54945851, 37339722, 52639888⟩, ⟨357, 358, true, 32388471, 33877496, 24340888, 33029452⟩, ⟨401, 402, false, 22004008, 23220294, 17299760, 22865656⟩, ⟨445, 446, true, 16268071, 17386079, 13264481, 17204600⟩, ⟨488, 489, false, 12590384, 14029632, 11480950, 14017110⟩, ⟨532, 533, true, 10781842, 12129256, 10045730, 12129174⟩, ⟨576, 577, false, 9867871, 11197387, 9361676, 11197360⟩, ⟨620, 621, true, 9635653, 11020417, 9295299, 11020417⟩, ⟨663, 664, false, 9617057, 11584616, 10273129, 11584688⟩, ⟨707, 708, true, 10735932, 13070838, 11706078, 13077367⟩, ⟨751, 752, false, 12940173, 15974429, 14495908, 16011899⟩, ⟨795, 796, true, 17060941, 21482463, 19870833, 21589373⟩, ⟨838, 839, false, 23705101, 32225025, 31585195, 33105785⟩, ⟨882, 883, true, 40501815, 58006547, 56483433, 61295132⟩, ⟨926, 927, false, 87129618, 138364296, 133003311, 159991507⟩, ⟨970, 971, true, 283664634, 596026903, 552585824, 922383218⟩]⟩
def r3 : Row := ⟨false, 188343783, 249332288, true, 9382244, 13040689, [⟨55, 56, true, 11775003783, 17703212353, 7190372429, 12487923555⟩, ⟨109, 110, false, 2725668637, 3214596500, 1993158856, 2813190818⟩, ⟨168, 169, true, 848905711, 1047177329, 582874592, 881885628⟩, ⟨222, 223, false, 275215512, 345102071, 177745361, 287205834⟩, ⟨268, 269, true, 112158858, 127210200, 76855013, 115891262⟩, ⟨312, 313, false, 59669690, 63473740, 43995843, 61052656⟩, ⟨357, 358, true, 35632234, 37655771, 26310719, 36420653⟩, ⟨401, 402, false, 24080019, 25231707, 18462861, 24728856⟩, ⟨444, 445, true, 17002754, 18589379, 14820029, 18518234⟩, ⟨488, 489, false, 13394286, 14844571, 12058103, 14819413⟩, ⟨532, 533, true, 11366073, 12727587, 10488856, 12727173⟩, ⟨576, 577, false, 10331831, 11682559, 9730265, 11682524⟩, ⟨620, 621, true, 10036328, 11447464, 9627029, 11447464⟩, ⟨663, 664, false, 9980404, 11992393, 10613605, 11992462⟩, ⟨707, 708, true, 11105689, 13494679, 12066786, 13498518⟩, ⟨751, 752, false, 13352072, 16457799, 14916291, 16493628⟩, ⟨795, 796, true, 17569255, 22096358, 20419430, 22203436⟩, ⟨838, 839, false, 24377619, 33107846, 32453746, 34002728⟩, ⟨882, 883, true, 41601126, 59539285, 57980132, 62892787⟩, ⟨926, 927, false, 89416807, 141927461, 136434961, 164060936⟩, ⟨970, 971, true, 290944608, 611137172, 566610114, 945631848⟩]⟩
def r4 : Row := ⟨false, 112575945, 152147921, true, 9708767, 13493341, [⟨54, 55, true, 6991516711, 11002527788, 3944375106, 7470762339⟩, ⟨100, 101, false, 2018101613, 2188273186, 1553371174, 2065098069⟩, ⟨153, 154, true, 949916649, 999222947, 768533312, 966455090⟩, ⟨212, 213, false, 408825463, 474051963, 296471443, 421593619⟩, ⟨266, 267, true, 157834723, 190810951, 105225078, 164002341⟩, ⟨312, 313, false, 72328182, 80312801, 50593328, 74520140⟩, ⟨356, 357, true, 42085290, 44295479, 31470082, 42972637⟩, ⟨400, 401, false, 26923098, 28513743, 21546913, 28128291⟩, ⟨444, 445, true, 18951158, 20488608, 16066419, 20363997⟩, ⟨488, 489, false, 14640589, 16091718, 12923510, 16044721⟩, ⟨532, 533, true, 12252139, 13636827, 11144641, 13624106⟩, ⟨576, 577, false, 11024052, 12400368, 10270127, 12400320⟩, ⟨620, 621, true, 10626718, 12072647, 10108947, 12072647⟩, ⟨663, 664, false, 10511106, 12584489, 11105472, 12584554⟩, ⟨707, 708, true, 11641612, 14106160, 12585129, 14106311⟩, ⟨751, 752, false, 13945485, 17151662, 15517891, 17184851⟩, ⟨795, 796, true, 18298128, 22974149, 21202018, 23081189⟩, ⟨838, 839, false, 25338757, 34366710, 33692562, 35280814⟩, ⟨882, 883, true, 43167755, 61719960, 60109906, 65163892⟩, ⟨926, 927, false, 92669541, 146988968, 141310214, 169837266⟩, ⟨970, 971, true, 301283753, 632581432, 586514465, 978614561⟩]⟩
def r5 : Row := ⟨false, 75174559, 102639032, true, 10144542, 14097321, [⟨54, 55, true, 4498704335, 7298263293, 2411756765, 4830728907⟩, ⟨99, 100, false, 1233982103, 1410784775, 871100639, 1273770733⟩, ⟨144, 145, true, 637150300, 684771749, 578320688, 682719274⟩, ⟨198, 199, false, 437733934, 450852246, 365287968, 443926646⟩, ⟨256, 257, true, 235004838, 262125557, 176247212, 241228553⟩, ⟨310, 311, false, 103071489, 121649629, 70095693, 106798868⟩, ⟨355, 356, true, 53252459, 56836977, 39346104, 54502283⟩, ⟨400, 401, false, 32509680, 34017688, 24525362, 33150174⟩, ⟨444, 445, true, 22044273, 23468910, 17903251, 23200217⟩, ⟨488, 489, false, 16530017, 17945982, 14170714, 17860911⟩, ⟨532, 533, true, 13552320, 14952374, 12072707, 14918978⟩, ⟨576, 577, false, 12015841, 13420194, 11023196, 13416359⟩, ⟨619, 620, true, 11002117, 12944441, 11255061, 12944441⟩, ⟨663, 664, false, 11248725, 13400645, 11778612, 13400703⟩, ⟨707, 708, true, 12378472, 14941503, 13289323, 14941653⟩, ⟨751, 752, false, 14754556, 18092950, 16330541, 18122021⟩, ⟨794, 795, true, 18248668, 23932668, 22898785, 24265003⟩, ⟨838, 839, false, 26634710, 36058864, 35358324, 36997111⟩, ⟨882, 883, true, 45271867, 64642107, 62964530, 68203663⟩, ⟨926, 927, false, 97025835, 153756959, 147830187, 177553150⟩, ⟨970, 971, true, 315104845, 661219024, 613097961, 1022640290⟩]⟩
def r6 : Row := ⟨false, 54097578, 74285876, true, 10707813, 14877799, [⟨53, 54, true, 3408158014, 5501316252, 1847414133, 3656529725⟩, ⟨98, 99, false, 861048806, 993231704, 596750800, 890349842⟩, ⟨143, 144, true, 424921682, 441908691, 332044393, 432286159⟩, ⟨188, 189, false, 272932183, 312032062, 281153570, 312032062⟩, ⟨242, 243, true, 238226766, 251548839, 214448297, 250614248⟩, ⟨300, 301, false, 153789059, 167374445, 117947953, 157369779⟩, ⟨354, 355, true, 74537349, 86523609, 51349553, 77084848⟩, ⟨399, 400, false, 41586718, 44086578, 30984013, 42507585⟩, ⟨444, 445, true, 27153092, 28303071, 20599784, 27662266⟩, ⟨488, 489, false, 19448802, 20780348, 15954583, 20573372⟩, ⟨532, 533, true, 15467085, 16850845, 13369182, 16781617⟩, ⟨576, 577, false, 13427577, 14862386, 12055254, 14838161⟩, ⟨619, 620, true, 12125874, 14139455, 12206616, 14139455⟩, ⟨663, 664, false, 12255334, 14501941, 12678025, 14501987⟩, ⟨707, 708, true, 13369382, 16055144, 14221105, 16055291⟩, ⟨751, 752, false, 15830341, 19336175, 17397744, 19358856⟩, ⟨794, 795, true, 19489427, 25479722, 24321796, 25816470⟩, ⟨838, 839, false, 28332589, 38266797, 37532781, 39233626⟩, ⟨882, 883, true, 48014334, 68439372, 66675225, 72147708⟩, ⟨926, 927, false, 102682590, 162527099, 156280695, 187538111⟩, ⟨970, 971, true, 333007975, 698266344, 647491991, 1079559371⟩]⟩
def r7 : Row := ⟨false, 41089124, 56622431, true, 11423877, 15869644, [⟨53, 54, true, 2557512488, 4168758384, 1364580158, 2748161506⟩, ⟨98, 99, false, 629039479, 743436372, 422700501, 652618279⟩, ⟨142, 143, true, 301065081, 315304069, 230423631, 306909001⟩, ⟨187, 188, false, 186441544, 201602883, 163827458, 200807633⟩, ⟨232, 233, true, 146780200, 175053566, 163050918, 175421723⟩, ⟨285, 286, false, 146551010, 162218505, 146673193, 162217532⟩, ⟨344, 345, true, 111455373, 119412484, 86839492, 113795567⟩, ⟨397, 398, false, 60556297, 67309332, 43756971, 62272936⟩, ⟨443, 444, true, 35045904, 36973858, 26254330, 35789007⟩, ⟨487, 488, false, 23631846, 25290788, 19636629, 25065509⟩, ⟨531, 532, true, 17826551, 19688473, 16012202, 19650614⟩, ⟨575, 576, false, 14946392, 16906476, 14148770, 16906390⟩, ⟨619, 620, true, 13700953, 15796303, 13489958, 15796303⟩, ⟨663, 664, false, 13629616, 15982852, 13871388, 15982878⟩, ⟨707, 708, true, 14695842, 17528832, 15441849, 17528973⟩, ⟨751, 752, false, 17249028, 20961318, 18782309, 20974017⟩, ⟨794, 795, true, 21108771, 27484771, 26155953, 27824176⟩, ⟨838, 839, false, 30528841, 41107805, 40332313, 42106557⟩, ⟨882, 883, true, 51538179, 73299742, 71426725, 77185956⟩, ⟨926, 927, false, 109916219, 173712125, 167060953, 200250419⟩, ⟨970, 971, true, 355830008, 745413710, 691269250, 1151938610⟩]⟩
def r8 : Row := ⟨false, 32516021, 44912664, true, 12327680, 17120985, [⟨53, 54, true, 2007630077, 3293496250, 1060111023, 2159489737⟩, ⟨98, 99, false, 485144042, 582191175, 319694722, 504385744⟩, ⟨142, 143, true, 225293251, 240125734, 166878212, 230526545⟩, ⟨186, 187, false, 135509244, 145451105, 114927359, 144400135⟩, ⟨231, 232, true, 101804116, 113491610, 95928161, 113490431⟩, ⟨276, 277, false, 92255551, 113005652, 107561921, 113735532⟩, ⟨329, 330, true, 103384776, 116699182, 107286951, 116699182⟩, ⟨387, 388, false, 89574718, 93245966, 72683510, 90980666⟩, ⟨441, 442, true, 51307795, 56568868, 37309987, 52706460⟩, ⟨487, 488, false, 31647493, 33265879, 23798730, 32295978⟩, ⟨531, 532, true, 22511359, 24156522, 18848778, 23969829⟩, ⟨575, 576, false, 17979744, 19915249, 16266590, 19888168⟩, ⟨619, 620, true, 15963999, 18125711, 15237018, 18125674⟩, ⟨663, 664, false, 15534082, 17996926, 15462136, 17996926⟩, ⟨707, 708, true, 16486002, 19487576, 17042781, 19487702⟩, ⟨751, 752, false, 19126188, 23087092, 20575511, 23087416⟩, ⟨794, 795, true, 23222598, 30078595, 28511807, 30416318⟩, ⟨838, 839, false, 33362902, 44749205, 43844062, 45780894⟩, ⟨882, 883, true, 56046662, 79487707, 77479227, 83584180⟩, ⟨926, 927, false, 119114651, 187887203, 180727686, 216325638⟩, ⟨970, 971, true, 384735684, 805003151, 746609688, 1243326709⟩]⟩
def r9 : Row := ⟨false, 26581225, 36774363, true, 13467797, 18698632, [⟨53, 54, true, 1631986082, 2689130845, 855586629, 1756667582⟩, ⟨97, 98, false, 405331766, 474103008, 274774876, 420084457⟩, ⟨141, 143, true, 177287025, 191219903, 128585019, 185431189⟩, ⟨186, 187, false, 106406281, 112061819, 84565595, 110373197⟩, ⟨230, 231, true, 74856395, 82589217, 67893135, 82459271⟩, ⟨274, 275, false, 62142630, 73692946, 66047001, 73692946⟩, ⟨320, 321, true, 65191919, 81279098, 78528496, 82155633⟩, ⟨373, 374, false, 80025889, 91662992, 85318607, 91703625⟩, ⟨431, 432, true, 76050551, 78648559, 62285410, 77139038⟩, ⟨485, 486, false, 46544536, 50977967, 34009879, 47772363⟩, ⟨530, 531, true, 30367265, 31978659, 24415136, 31548942⟩, ⟨575, 576, false, 22882691, 24617449, 19300328, 24455227⟩, ⟨619, 620, true, 19360926, 21515491, 17662225, 21499825⟩, ⟨663, 664, false, 18251388, 20825920, 17612639, 20825920⟩, ⟨707, 708, true, 18949720, 22128748, 19162541, 22128846⟩, ⟨750, 751, false, 20613387, 25793232, 23721456, 25894328⟩, ⟨794, 795, true, 26006299, 33454801, 31549854, 33781693⟩, ⟨838, 839, false, 37039908, 49433028, 48255012, 50493927⟩, ⟨882, 883, true, 61832458, 87379340, 85203213, 91728413⟩, ⟨926, 927, false, 130827761, 205860442, 198063806, 236651382⟩, ⟨970, 971, true, 421358906, 880301754, 816555836, 1358660537⟩]⟩
def r10 : Row := ⟨false, 22314421, 30907081, true, 14912617, 20696512, [⟨53, 54, true, 1364458720, 2255458037, 711650892, 1469443223⟩, ⟨97, 98, false, 336280204, 396120754, 226016064, 348850211⟩, ⟨141, 142, true, 148669167, 157702881, 110750752, 152002411⟩, ⟨185, 186, false, 84658178, 90426473, 69989678, 89508434⟩, ⟨229, 230, true, 57792556, 64286315, 53135861, 64238473⟩, ⟨274, 275, false, 48039536, 54008110, 45411422, 54007712⟩, ⟨318, 319, true, 44203780, 53255470, 48345565, 53299185⟩, ⟨363, 364, false, 48008308, 63058697, 61922494, 64830937⟩, ⟨417, 418, true, 67057796, 77689345, 73029483, 77833603⟩, ⟨475, 476, false, 69133368, 71155793, 57067343, 70041347⟩, ⟨529, 530, true, 45055711, 49058554, 33059238, 46208774⟩, ⟨574, 575, false, 31051561, 32795550, 25171999, 32395833⟩, ⟨618, 619, true, 24056287, 26785339, 22202215, 26779657⟩, ⟨662, 663, false, 21479314, 24906570, 21519197, 24906570⟩, ⟨706, 707, true, 21510298, 25803374, 22919124, 25803544⟩, ⟨750, 751, false, 23945239, 29590338, 26956381, 29666700⟩, ⟨794, 795, true, 29734609, 37908302, 35508430, 38205973⟩, ⟨838, 839, false, 41869912, 55517417, 53935591, 56594205⟩, ⟨882, 883, true, 69326177, 97519337, 95136210, 102184181⟩, ⟨926, 927, false, 145848897, 228785023, 220187803, 262484757⟩, ⟨970, 971, true, 468026759, 975930454, 905413761, 1504899010⟩]⟩
def r11 : Row := ⟨false, 19154808, 26553514, true, 16760243, 23249106, [⟨53, 54, true, 1167722691, 1934788514, 606719689, 1258039361⟩, ⟨97, 98, false, 286156100, 338814888, 191125385, 297057665⟩, ⟨141, 142, true, 125263047, 133599993, 92422471, 128215115⟩, ⟨185, 186, false, 71209417, 75412443, 57246406, 74395846⟩, ⟨229, 230, true, 47860517, 52398766, 42163415, 52224036⟩, ⟨273, 274, false, 37415504, 42422062, 35808880, 42421696⟩, ⟨317, 318, true, 33132916, 39323413, 34856487, 39323413⟩, ⟨362, 363, false, 34521534, 42026554, 38485291, 42115981⟩, ⟨407, 408, true, 40350602, 53455206, 52432412, 55217134⟩, ⟨461, 462, false, 60322018, 70551048, 66880494, 70767072⟩, ⟨519, 520, true, 66468173, 68715692, 55755428, 67863284⟩, ⟨572, 573, false, 47610494, 50378614, 36436608, 48583454⟩, ⟨618, 619, true, 33880016, 35904375, 27735206, 35518459⟩, ⟨662, 663, false, 27913268, 31242829, 26071150, 31242729⟩, ⟨706, 707, true, 26613848, 31123056, 27108994, 31123134⟩, ⟨750, 751, false, 28692115, 34848615, 31330370, 34873916⟩, ⟨794, 795, true, 34858289, 43905901, 40752263, 44137392⟩, ⟨838, 839, false, 48339006, 63548972, 61349235, 64608663⟩, ⟨882, 883, true, 79180377, 110717020, 108078646, 115734796⟩, ⟨926, 927, false, 165351208, 258342957, 248733418, 295641978⟩, ⟨970, 971, true, 528125373, 1098555238, 1019400157, 1692038055⟩]⟩
def rows : List Row := [r0, r1, r2, r3, r4, r5, r6, r7, r8, r9, r10, r11]

theorem c0 : cellsOk P (offc P) Z rows 1 0 32 = true := by decide +kernel
theorem c1 : cellsOk P (offc P) Z rows 1 32 32 = true := by decide +kernel
theorem c2 : cellsOk P (offc P) Z rows 1 64 32 = true := by decide +kernel
theorem c3 : cellsOk P (offc P) Z rows 1 96 32 = true := by decide +kernel
theorem c4 : cellsOk P (offc P) Z rows 1 128 32 = true := by decide +kernel
theorem c5 : cellsOk P (offc P) Z rows 1 160 32 = true := by decide +kernel
theorem c6 : cellsOk P (offc P) Z rows 1 192 32 = true := by decide +kernel
theorem c7 : cellsOk P (offc P) Z rows 1 224 32 = true := by decide +kernel

end Gslib.Lob.Cert24
