import Verif.Lemmas.LobCertified

/-! Certificate for `lob_bnd_setup` with n = 19, part 1; generated. The data are found numerically, the kernel checks them. -/

namespace Gslib.Lob.Cert19
open Gslib.Lob Gslib.Poly
set_option maxRecDepth 100000
set_option Elab.async false

def P : Par := ⟨19, 512, 8, 4, 14, 2682, 2513, 3268, 2 ^ 3267⟩
def Z : List ℕ := [0, 21388233777919904847365936889777437185722662189190, 71098471847413756282059741203451387549831817748050, 147539422203353906914044029958937374762904619161130, 248505797447386985836362510366055959596340644334200, 371091862734779502233167693771267452931388842810440, 511770714319286497222090362375076630228784400348520, 666495152175501389701499896155072988077036624522270, 830813976590718428624845846555119576247104449234150, 1000000000000000000000000000000000000000000000000000, 1169186023409281571375154153444880423752895550765850, 1333504847824498610298500103844927011922963375477730, 1488229285680713502777909637624923369771215599651480, 1628908137265220497766832306228732547068611157189560, 1751494202552613014163637489633944040403659355665800, 1852460577796646093085955970041062625237095380838870, 1928901528152586243717940258796548612450168182251950, 1978611766222080095152634063110222562814277337810810, 2000000000000000000000000000000000000000000000000000]
def r0 : Row := ⟨true, 985889709, 1154212637, true, 14577491, 20249345, [⟨56, 57, false, 2433530562, 4537974670, 1197768933, 2810644230⟩, ⟨86, 87, true, 411879969, 587105563, 245902258, 451932714⟩, ⟨114, 115, false, 136815417, 164151087, 94689943, 145364726⟩, ⟨143, 144, true, 56856325, 65378946, 40193692, 59991076⟩, ⟨171, 172, false, 30792701, 33518939, 22961548, 32094005⟩, ⟨199, 200, true, 19416260, 20533668, 15015634, 20063515⟩, ⟨227, 228, false, 13776191, 14423459, 11033772, 14263772⟩, ⟨255, 256, true, 10726985, 11414928, 9009264, 11347987⟩, ⟨282, 283, false, 8825879, 10032597, 8727008, 10032581⟩, ⟨310, 311, true, 8447034, 9793838, 8675631, 9793838⟩, ⟨338, 339, false, 8980941, 10644793, 9601560, 10645118⟩, ⟨366, 367, true, 10702005, 13021215, 12009296, 13024578⟩, ⟨394, 395, false, 14577686, 18380449, 17490329, 18523946⟩, ⟨422, 423, true, 23608591, 31481022, 30428220, 32352298⟩, ⟨449, 450, false, 43660299, 69375457, 64912064, 80401966⟩, ⟨450, 451, false, 49391282, 73184314, 69254346, 81116191⟩, ⟨478, 479, true, 163283389, 320392043, 285920632, 466354069⟩]⟩
def r1 : Row := ⟨true, 721862593, 863110466, true, 14734758, 20466933, [⟨49, 50, false, 3697763968, 6190348896, 2118014862, 4158134656⟩, ⟨85, 86, true, 505316032, 748430800, 298787296, 557083610⟩, ⟨114, 115, false, 147910044, 183801335, 99529240, 158147790⟩, ⟨142, 143, true, 63284205, 70109508, 46862836, 66188851⟩, ⟨171, 172, false, 32034183, 35139703, 23693955, 33448889⟩, ⟨199, 200, true, 20024481, 21252129, 15408176, 20715711⟩, ⟨227, 228, false, 14182721, 14810811, 11274860, 14635313⟩, ⟨255, 256, true, 10984214, 11667761, 9177643, 11593005⟩, ⟨282, 283, false, 9007974, 10221422, 8873723, 10221393⟩, ⟨310, 311, true, 8596793, 9951739, 8805295, 9951739⟩, ⟨338, 339, false, 9121148, 10798364, 9731755, 10798685⟩, ⟨366, 367, true, 10852359, 13192739, 12159835, 13194121⟩, ⟨394, 395, false, 14765666, 18605659, 17696600, 18748825⟩, ⟨422, 423, true, 23893162, 31846077, 30783482, 32722417⟩, ⟨449, 450, false, 44164571, 70153019, 65643107, 81287368⟩, ⟨450, 451, false, 49957437, 74000782, 70030485, 82005627⟩, ⟨478, 479, true, 165093571, 323885365, 289046081, 471399556⟩]⟩
def r2 : Row := ⟨true, 380910123, 478710356, true, 15113720, 20991175, [⟨40, 41, false, 4592624222, 7021016681, 2923505498, 5056380980⟩, ⟨78, 79, true, 781932051, 1047284021, 529882008, 841906360⟩, ⟨113, 114, false, 193800565, 257103412, 126246521, 209237437⟩, ⟨142, 143, true, 72731287, 84401868, 51759146, 76771262⟩, ⟨170, 171, false, 36949897, 39539140, 28380648, 38308168⟩, ⟨199, 200, true, 21587810, 23123575, 16394004, 22399583⟩, ⟨227, 228, false, 15129234, 15818374, 11874824, 15575788⟩, ⟨254, 255, true, 11118200, 12300031, 10364509, 12299587⟩, ⟨282, 283, false, 9461115, 10688574, 9234053, 10688513⟩, ⟨310, 311, true, 8965972, 10338950, 9121915, 10338950⟩, ⟨338, 339, false, 9464400, 11172879, 10048284, 11173189⟩, ⟨366, 367, true, 11218575, 13609321, 12524632, 13610237⟩, ⟨394, 395, false, 15221796, 19150971, 18195259, 19293127⟩, ⟨422, 423, true, 24581761, 32728090, 31642065, 33616192⟩, ⟨449, 450, false, 45382762, 72029301, 67407457, 83422458⟩, ⟨478, 479, true, 169459844, 332306362, 296580990, 483558758⟩]⟩
def r3 : Row := ⟨true, 192040065, 254220701, true, 15736062, 21851864, [⟨35, 36, false, 3605781747, 5429064647, 2309844695, 3959251235⟩, ⟨69, 70, true, 887460065, 1041502309, 678648984, 930892436⟩, ⟨106, 107, false, 298241226, 357087325, 221276433, 314431746⟩, ⟨141, 142, true, 98753762, 123296742, 67633942, 105404677⟩, ⟨170, 171, false, 44031562, 49151160, 32365926, 46121610⟩, ⟨198, 199, true, 25487207, 26802506, 20028501, 26276278⟩, ⟨226, 227, false, 16580476, 17671701, 14108302, 17577199⟩, ⟨254, 255, true, 12258885, 13414415, 11166607, 13413815⟩, ⟨282, 283, false, 10252269, 11495006, 9847264, 11494884⟩, ⟨310, 311, true, 9598922, 10996167, 9654930, 10996167⟩, ⟨338, 339, false, 10045185, 11801901, 10576796, 11802191⟩, ⟨366, 367, true, 11832234, 14303588, 13130025, 14304518⟩, ⟨394, 395, false, 15980680, 20054626, 19019127, 20194455⟩, ⟨422, 423, true, 25721471, 34183790, 33059807, 35089837⟩, ⟨449, 450, false, 47392725, 75118588, 70313428, 86933519⟩, ⟨478, 479, true, 176643488, 346145385, 308965978, 503530561⟩]⟩
def r4 : Row := ⟨true, 115573141, 156212198, true, 16641150, 23103068, [⟨34, 35, false, 2228810225, 3480524325, 1349485476, 2470644754⟩, ⟨63, 64, true, 665652742, 713821717, 538524654, 687398986⟩, ⟨97, 98, false, 322845299, 338392835, 270773728, 330990877⟩, ⟨134, 135, true, 151313138, 169957013, 118053813, 157619915⟩, ⟨169, 170, false, 61115037, 73426417, 43155787, 64760779⟩, ⟨198, 199, true, 31126621, 34009599, 23364508, 32437735⟩, ⟨226, 227, false, 20009863, 20864562, 16031990, 20619564⟩, ⟨254, 255, true, 14164389, 15254288, 12424820, 15225260⟩, ⟨282, 283, false, 11519300, 12762923, 10788966, 12762689⟩, ⟨310, 311, true, 10583336, 12016252, 10460027, 12016252⟩, ⟨338, 339, false, 10929783, 12748930, 11365129, 12749182⟩, ⟨366, 367, true, 12752823, 15336336, 14024629, 15337280⟩, ⟨394, 395, false, 17106589, 21387119, 20228340, 21522029⟩, ⟨422, 423, true, 27398906, 36317007, 35139002, 37246053⟩, ⟨449, 450, false, 50336885, 79629226, 74558602, 92050286⟩, ⟨478, 479, true, 187120263, 366293671, 327002122, 532584124⟩]⟩
def r5 : Row := ⟨true, 77857312, 106315964, true, 17890485, 24829158, [⟨34, 35, false, 1446260421, 2327998550, 837834419, 1615535258⟩, ⟨63, 64, true, 398129184, 463040138, 290095182, 419308282⟩, ⟨92, 93, false, 222750736, 233606521, 195225147, 232339712⟩, ⟨125, 126, true, 153971148, 161933267, 141053312, 161660919⟩, ⟨162, 163, false, 93370906, 100819853, 75244355, 96500787⟩, ⟨197, 198, true, 43861826, 51300738, 31619221, 46244679⟩, ⟨226, 227, false, 24978437, 26868109, 19032394, 25933129⟩, ⟨254, 255, true, 17405978, 18328251, 14351174, 18172389⟩, ⟨282, 283, false, 13536044, 14723965, 12191908, 14723483⟩, ⟨310, 311, true, 12081678, 13549049, 11632214, 13549049⟩, ⟨338, 339, false, 12234882, 14122468, 12492772, 14122649⟩, ⟨366, 367, true, 14081180, 16808372, 15287496, 16809323⟩, ⟨394, 395, false, 18705430, 23262737, 21919081, 23387720⟩, ⟨422, 423, true, 29753833, 39293337, 38043146, 40247928⟩, ⟨449, 450, false, 54442146, 85890285, 80455487, 99133660⟩, ⟨478, 479, true, 201639268, 394147816, 351945671, 572703731⟩]⟩
def r6 : Row := ⟨true, 56634185, 77780776, true, 19577155, 27157622, [⟨34, 35, false, 1029112674, 1684836692, 581573900, 1154503972⟩, ⟨62, 63, true, 286047389, 329577522, 208892557, 300966536⟩, ⟨91, 92, false, 144572423, 151899145, 115539223, 148826009⟩, ⟨120, 121, true, 102294890, 112957040, 101176727, 112952694⟩, ⟨153, 154, false, 89524228, 97459519, 88640866, 97456936⟩, ⟨190, 191, true, 66888875, 70541113, 55163933, 68740057⟩, ⟨225, 226, false, 35602350, 40792799, 26062790, 37392149⟩, ⟨253, 254, true, 22750690, 23880017, 18871055, 23674264⟩, ⟨282, 283, false, 16886141, 17935547, 14285917, 17835547⟩, ⟨310, 311, true, 14406851, 15858756, 13332537, 15858597⟩, ⟨338, 339, false, 14169372, 16113326, 14090325, 16113326⟩, ⟨366, 367, true, 15988371, 18885427, 17044930, 18886365⟩, ⟨394, 395, false, 20949858, 25863584, 24241656, 25968980⟩, ⟨421, 422, true, 29933923, 42136090, 40350927, 44347916⟩, ⟨449, 450, false, 60061391, 94407411, 88485253, 108734044⟩, ⟨478, 479, true, 221346650, 431830522, 385707997, 626895694⟩]⟩
def r7 : Row := ⟨true, 43568692, 60048524, true, 21841930, 30280821, [⟨34, 35, false, 780829522, 1291681057, 434590563, 878271979⟩, ⟨62, 63, true, 211616202, 249716166, 150427935, 223808579⟩, ⟨90, 91, false, 104751268, 109649333, 83712000, 107755647⟩, ⟨118, 119, true, 65831684, 73595680, 64505435, 73592271⟩, ⟨147, 148, false, 55922675, 68124509, 65700342, 68558482⟩, ⟨181, 182, true, 61558759, 69042134, 64398187, 69042134⟩, ⟨218, 219, false, 54225811, 56392425, 45539023, 55477681⟩, ⟨252, 253, true, 33690321, 36320783, 26340772, 34901884⟩, ⟨281, 282, false, 22296171, 23610604, 18985092, 23477347⟩, ⟨310, 311, true, 18217573, 19523203, 15836479, 19474163⟩, ⟨338, 339, false, 17130107, 19122419, 16376126, 19122419⟩, ⟨366, 367, true, 18776149, 21847307, 19501490, 21848178⟩, ⟨393, 394, false, 22226756, 29065635, 28228884, 29551375⟩, ⟨394, 395, false, 24128345, 29484545, 27432902, 29551375⟩, ⟨421, 422, true, 34085143, 47618550, 45658440, 49939309⟩, ⟨449, 450, false, 67747968, 105960844, 99392369, 121692107⟩, ⟨478, 479, true, 248000927, 482569828, 431199818, 699712201⟩]⟩
def r8 : Row := ⟨true, 34993951, 48342274, true, 24901201, 34493576, [⟨33, 34, false, 698941253, 1123643756, 407198525, 780393918⟩, ⟨34, 35, false, 621432164, 1034990930, 342436268, 700183645⟩, ⟨62, 63, true, 165646853, 198417041, 115768313, 175758959⟩, ⟨90, 91, false, 79546742, 84689380, 61771836, 82306535⟩, ⟨118, 119, true, 50044197, 53775100, 44240156, 53673477⟩, ⟨146, 147, false, 38510833, 44745883, 40521841, 44745883⟩, ⟨175, 176, true, 38390584, 48167831, 47002056, 48848903⟩, ⟨209, 210, false, 48390563, 55592800, 52825764, 55628811⟩, ⟨246, 247, true, 49031491, 50432744, 41862448, 50009573⟩, ⟨280, 281, false, 33780523, 35936660, 26745479, 34883703⟩, ⟨309, 310, true, 24274005, 25944213, 21257625, 25879788⟩, ⟨337, 338, false, 20828440, 23800504, 21053417, 23800504⟩, ⟨365, 366, true, 21547899, 26176544, 24245517, 26191372⟩, ⟨393, 394, false, 26581898, 34218473, 33185217, 34624467⟩, ⟨421, 422, true, 39960173, 55244914, 53063409, 57650367⟩, ⟨449, 450, false, 78394110, 121782165, 114356199, 139316785⟩, ⟨478, 479, true, 284357352, 551364521, 492936867, 798162487⟩]⟩
def r9 : Row := ⟨true, 29097317, 40260462, true, 29097317, 40260462, [⟨33, 34, false, 578150551, 933358710, 334886044, 646199944⟩, ⟨62, 63, true, 135317994, 163712843, 93503258, 143888806⟩, ⟨90, 91, false, 63679298, 68528825, 48552644, 66132473⟩, ⟨118, 119, true, 39945937, 42158622, 33252382, 41825420⟩, ⟨146, 147, false, 29850351, 33050596, 28235769, 33049557⟩, ⟨174, 175, true, 26737780, 31922460, 29497181, 31922838⟩, ⟨203, 204, false, 30223205, 38743484, 37647919, 39626358⟩, ⟨237, 238, true, 42685039, 50039842, 48316975, 50272299⟩, ⟨274, 275, false, 48316975, 50272299, 42685039, 50039842⟩, ⟨308, 309, true, 37647919, 39626358, 30223205, 38743484⟩, ⟨337, 338, false, 29497181, 31922838, 26737780, 31922460⟩, ⟨365, 366, true, 28235769, 33049557, 29850351, 33050596⟩, ⟨393, 394, false, 33252382, 41825420, 39945937, 42158622⟩, ⟨421, 422, true, 48552644, 66132473, 63679298, 68528825⟩, ⟨449, 450, false, 93503258, 143888806, 135317994, 163712843⟩, ⟨478, 479, true, 334886044, 646199944, 578150551, 933358710⟩]⟩
def rows : List Row := [r0, r1, r2, r3, r4, r5, r6, r7, r8, r9]

theorem c0 : cellsOk P (offc P) Z rows 2 0 32 = true := by decide +kernel
theorem c1 : cellsOk P (offc P) Z rows 2 32 32 = true := by decide +kernel
theorem c2 : cellsOk P (offc P) Z rows 2 64 32 = true := by decide +kernel
theorem c3 : cellsOk P (offc P) Z rows 2 96 32 = true := by decide +kernel
theorem c4 : cellsOk P (offc P) Z rows 2 128 32 = true := by decide +kernel
theorem c5 : cellsOk P (offc P) Z rows 2 160 32 = true := by decide +kernel
theorem c6 : cellsOk P (offc P) Z rows 2 192 32 = true := by decide +kernel
theorem c7 : cellsOk P (offc P) Z rows 2 224 32 = true := by decide +kernel

end Gslib.Lob.Cert19
