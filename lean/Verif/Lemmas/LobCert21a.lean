import Verif.Lemmas.LobCertified

/-! Certificate for `lob_bnd_setup` with n = 21, part 1; generated. The data are found numerically, the kernel checks them. -/

namespace Gslib.Lob.Cert21
open Gslib.Lob Gslib.Poly
set_option maxRecDepth 100000
set_option Elab.async false

def P : Par := ⟨21, 1024, 14, 7, 25, 3020, 2850, 3612, 2 ^ 3611⟩
def Z : List ℕ := [0, 17427703395451971765518723444594123140828411763590, 58023703040254465703897349338564823350349125955990, 120705244676409535548846403695055952289418448490800, 203998073922287595255687410339641360909580339450220, 305948973937776767372683606805333371242283993894150, 424168039738169313072978129661914712664226991441520, 555884216720997898805483650392648715264942513432940, 698010143491235112724648132141247767978928965939610, 847214484197814533993641671514330564482251006686720, 1000000000000000000000000000000000000000000000000000, 1152785515802185466006358328485669435517748993313280, 1301989856508764887275351867858752232021071034060390, 1444115783279002101194516349607351284735057486567060, 1575831960261830686927021870338085287335773008558480, 1694051026062223232627316393194666628757716006105850, 1796001926077712404744312589660358639090419660549780, 1879294755323590464451153596304944047710581551509200, 1941976296959745534296102650661435176649650874044010, 1982572296604548028234481276555405876859171588236410, 2000000000000000000000000000000000000000000000000000]
def r0 : Row := ⟨true, 776000839, 905838550, true, 9376766, 12940551, [⟨101, 102, false, 4976647819, 8588207095, 2588640249, 5380048947⟩, ⟨155, 156, true, 814401220, 1104702048, 511366178, 855908557⟩, ⟨207, 208, false, 246961275, 299788723, 169668629, 256293559⟩, ⟨258, 259, true, 104261340, 117588926, 76265472, 107275476⟩, ⟨308, 309, false, 54868203, 58224501, 42836612, 55971132⟩, ⟨359, 360, true, 32675297, 34165239, 25971345, 33241145⟩, ⟨409, 410, false, 21843267, 22800483, 18421465, 22558599⟩, ⟨460, 461, true, 16166898, 16931149, 13739778, 16773739⟩, ⟨510, 511, false, 12888172, 13797015, 11650402, 13760621⟩, ⟨560, 561, true, 11174212, 12251881, 10692630, 12251849⟩, ⟨610, 611, false, 10506157, 11827927, 10621454, 11827927⟩, ⟨661, 662, true, 11087290, 12440053, 11137326, 12440081⟩, ⟨711, 712, false, 12396724, 14354838, 13222680, 14361233⟩, ⟨761, 762, true, 15296633, 18366851, 17481586, 18477175⟩, ⟨811, 812, false, 21264647, 26719929, 26318371, 27266021⟩, ⟨861, 862, true, 34603723, 46361072, 45309690, 49013180⟩, ⟨912, 913, false, 76094175, 109797854, 106274363, 124899534⟩, ⟨962, 963, true, 244120154, 457237059, 428058602, 674737867⟩]⟩
def r1 : Row := ⟨true, 567899328, 676731736, true, 9459054, 13053755, [⟨88, 89, false, 7652303706, 11966852412, 4587092662, 8149542365⟩, ⟨154, 155, true, 958220783, 1371909766, 579248912, 1012689692⟩, ⟨206, 207, false, 277209563, 337555214, 191442634, 287663027⟩, ⟨257, 259, true, 109974171, 125998577, 79354257, 116325471⟩, ⟨308, 309, false, 57116184, 61004490, 44253596, 58324152⟩, ⟨359, 360, true, 33691227, 35344781, 26650638, 34296719⟩, ⟨409, 410, false, 22474266, 23403426, 18823224, 23133427⟩, ⟨460, 461, true, 16540100, 17293190, 13989590, 17121938⟩, ⟨510, 511, false, 13137473, 14043643, 11834623, 14003511⟩, ⟨560, 561, true, 11359787, 12439865, 10842272, 12439830⟩, ⟨610, 611, false, 10659149, 11987313, 10755196, 11987313⟩, ⟨661, 662, true, 11230186, 12590299, 11264294, 12590326⟩, ⟨711, 712, false, 12542046, 14514118, 13362637, 14519563⟩, ⟨761, 762, true, 15462228, 18556800, 17655680, 18666276⟩, ⟨811, 812, false, 21480250, 26980986, 26576575, 27529151⟩, ⟨861, 862, true, 34936701, 46794488, 45734605, 49464493⟩, ⟨912, 913, false, 76795655, 110790078, 107236752, 126012890⟩, ⟨962, 963, true, 246312652, 461291260, 431858688, 680681034⟩]⟩
def r2 : Row := ⟨true, 299429729, 374615433, true, 9656451, 13325293, [⟨72, 73, false, 9259032265, 13424953046, 6076730751, 9755062921⟩, ⟨141, 142, true, 1505645268, 1955609655, 1043608843, 1568620458⟩, ⟨204, 205, false, 367149757, 471714872, 246853782, 382888285⟩, ⟨257, 258, true, 129964268, 151211503, 93137003, 134154171⟩, ⟨308, 309, false, 63068984, 68614539, 47867135, 64581617⟩, ⟨359, 360, true, 36306749, 38419326, 28362282, 37021128⟩, ⟨409, 410, false, 24090286, 24960661, 19825846, 24588992⟩, ⟨460, 461, true, 17478268, 18198501, 14606551, 17990493⟩, ⟨510, 511, false, 13756618, 14653213, 12286494, 14603381⟩, ⟨560, 561, true, 11816573, 12900671, 11207304, 12900629⟩, ⟨610, 611, false, 11033221, 12375630, 11080010, 12375630⟩, ⟨660, 661, true, 11200128, 12953322, 11911910, 12954696⟩, ⟨711, 712, false, 12894067, 14899156, 13700358, 14902209⟩, ⟨761, 762, true, 15862173, 19014834, 18074925, 19122099⟩, ⟨811, 812, false, 21999793, 27609296, 27198104, 28162194⟩, ⟨861, 862, true, 35737718, 47836175, 46755961, 50548680⟩, ⟨912, 913, false, 78480893, 113172362, 109547551, 128684897⟩, ⟨962, 963, true, 251575774, 471019727, 440977707, 694939462⟩]⟩
def r3 : Row := ⟨true, 150776968, 198442988, true, 9977959, 13767478, [⟨64, 65, false, 6873533363, 9955405368, 4462218467, 7244836213⟩, ⟨125, 126, true, 1686809122, 1956435631, 1305709250, 1732737786⟩, ⟨192, 193, false, 550378378, 654206142, 411261071, 567449966⟩, ⟨255, 256, true, 177610801, 219080322, 123312780, 184359063⟩, ⟨307, 308, false, 76916037, 85239560, 57688736, 78926122⟩, ⟨358, 359, true, 42090686, 44453158, 33115865, 42895478⟩, ⟨409, 410, false, 26800194, 27800240, 21582799, 27217528⟩, ⟨459, 460, true, 18794563, 19820067, 16359512, 19689839⟩, ⟨510, 511, false, 14833543, 15711851, 13053679, 15635551⟩, ⟨560, 561, true, 12597559, 13685544, 11820692, 13682257⟩, ⟨610, 611, false, 11664670, 13029778, 11621351, 13029778⟩, ⟨660, 661, true, 11767341, 13563985, 12440306, 13564045⟩, ⟨711, 712, false, 13477928, 15535306, 14256461, 15535431⟩, ⟨761, 762, true, 16521851, 19768079, 18762674, 19871194⟩, ⟨811, 812, false, 22853117, 28638931, 28216886, 29198800⟩, ⟨861, 862, true, 37049174, 49538805, 48425664, 52319205⟩, ⟨912, 913, false, 81233193, 117058713, 113317728, 133040529⟩, ⟨962, 963, true, 260158870, 486873724, 455839509, 718167230⟩]⟩
def r4 : Row := ⟨true, 90478728, 121525039, true, 10439846, 14402566, [⟨62, 63, false, 4284168373, 6395756720, 2647455680, 4537789651⟩, ⟨115, 116, true, 1240502977, 1345660270, 998178998, 1265859185⟩, ⟨176, 177, false, 594410102, 626540335, 497986133, 603665721⟩, ⟨243, 244, true, 267896555, 304459868, 207666320, 274757915⟩, ⟨305, 306, false, 107616416, 126961669, 77973606, 111092527⟩, ⟨357, 358, true, 52464033, 56342011, 40695863, 53596568⟩, ⟨408, 409, false, 31633881, 32789958, 25605293, 32116705⟩, ⟨459, 460, true, 21566180, 22464068, 18131593, 22217293⟩, ⟨510, 511, false, 16548171, 17385968, 14227601, 17250201⟩, ⟨560, 561, true, 13807179, 14896809, 12744744, 14877682⟩, ⟨610, 611, false, 12623137, 14018381, 12426701, 14018381⟩, ⟨660, 661, true, 12615424, 14469757, 13218665, 14469811⟩, ⟨711, 712, false, 14340252, 16469279, 15068685, 16469403⟩, ⟨761, 762, true, 17487899, 20866147, 19761462, 20962069⟩, ⟨811, 812, false, 24094699, 30131896, 29694688, 30700145⟩, ⟨861, 862, true, 38948142, 51997921, 50837891, 54872948⟩, ⟨912, 913, false, 85203535, 122655511, 118748188, 139305837⟩, ⟨962, 963, true, 272513179, 509669333, 477210644, 751546787⟩]⟩
def r5 : Row := ⟨true, 60704205, 82351750, true, 11066896, 15264439, [⟨61, 62, false, 2945207348, 4444846956, 1791959229, 3124818649⟩, ⟨113, 114, true, 778754937, 870500242, 595620569, 798702326⟩, ⟨166, 167, false, 414391079, 430863804, 370033780, 428049752⟩, ⟨227, 228, true, 284995392, 291263834, 248319805, 287783449⟩, ⟨293, 294, false, 161345155, 175285845, 130252973, 164572032⟩, ⟨355, 356, true, 74658550, 85126154, 55869063, 76746356⟩, ⟨408, 409, false, 39272869, 42147521, 30383956, 40120007⟩, ⟨459, 460, true, 25894614, 26886405, 20840253, 26302041⟩, ⟨509, 510, false, 18885367, 19987365, 16654493, 19889421⟩, ⟨560, 561, true, 15637697, 16700015, 14085465, 16652636⟩, ⟨610, 611, false, 14030743, 15450457, 13574851, 15450445⟩, ⟨660, 661, true, 13833823, 15756074, 14313001, 15756119⟩, ⟨711, 712, false, 15557440, 17776436, 16197016, 17776558⟩, ⟨761, 762, true, 18835092, 22387635, 21137951, 22472375⟩, ⟨811, 812, false, 25810422, 32185057, 31728104, 32761489⟩, ⟨861, 862, true, 41554582, 55361220, 54138340, 58359112⟩, ⟨912, 913, false, 90624553, 130279283, 126147212, 147826370⟩, ⟨962, 963, true, 289329803, 540652767, 506262021, 796881011⟩]⟩
def r6 : Row := ⟨true, 43930347, 59931550, true, 11895374, 16402618, [⟨61, 62, false, 2090463967, 3200436715, 1245123224, 2222887854⟩, ⟨113, 114, true, 528459369, 613404892, 385997484, 544817924⟩, ⟨164, 165, false, 269721041, 278991620, 222516472, 273538995⟩, ⟨216, 217, true, 183277648, 202369877, 187028161, 202369877⟩, ⟨277, 278, false, 160190807, 168873135, 152435335, 168736440⟩, ⟨344, 345, true, 109345359, 117212411, 89157142, 111355361⟩, ⟨406, 407, false, 56282911, 63931605, 42060660, 57841973⟩, ⟨458, 459, true, 33172247, 34943085, 26289027, 33780946⟩, ⟨509, 510, false, 23343475, 24212657, 19423541, 23899454⟩, ⟨559, 560, true, 18045765, 19436465, 16653956, 19408824⟩, ⟨610, 611, false, 16104963, 17519225, 15195083, 17519186⟩, ⟨660, 661, true, 15573686, 17563194, 15828581, 17563221⟩, ⟨710, 711, false, 16662942, 19538146, 18216258, 19576255⟩, ⟨761, 762, true, 20680850, 24453937, 22993535, 24532210⟩, ⟨811, 812, false, 28132039, 34945144, 34358220, 35526490⟩, ⟨861, 862, true, 45049295, 59849217, 58544768, 62999288⟩, ⟨912, 913, false, 97842008, 140397482, 135970389, 159110110⟩, ⟨962, 963, true, 311627419, 581653504, 544713233, 856810901⟩]⟩
def r7 : Row := ⟨true, 33587262, 45979718, true, 12977822, 17888756, [⟨61, 62, false, 1578857342, 2438513991, 928195658, 1681161523⟩, ⟨112, 113, true, 401058954, 463189497, 293761007, 413296805⟩, ⟨163, 164, false, 191822894, 200367333, 154933321, 194983681⟩, ⟨214, 215, true, 122504889, 131299607, 114145136, 131125151⟩, ⟨266, 267, false, 101303115, 117698403, 113265785, 118224235⟩, ⟨328, 329, true, 107001536, 114140747, 104513460, 114140294⟩, ⟨394, 395, false, 84491639, 88482710, 70698150, 85744187⟩, ⟨456, 457, true, 48062114, 53261776, 36780907, 49241489⟩, ⟨508, 509, false, 30583528, 31749252, 24777877, 31054213⟩, ⟨559, 560, true, 22618074, 23793203, 19683283, 23635749⟩, ⟨609, 610, false, 18768164, 20617842, 18131486, 20617800⟩, ⟨660, 661, true, 18100426, 20137975, 17935637, 20137975⟩, ⟨710, 711, false, 18988238, 22042044, 20389491, 22060444⟩, ⟨761, 762, true, 23211939, 27253892, 25482663, 27319539⟩, ⟨811, 812, false, 31262709, 38634649, 37836467, 39211672⟩, ⟨861, 862, true, 49704616, 65789951, 64381571, 69120820⟩, ⟨912, 913, false, 107367232, 153695607, 148886429, 173897474⟩, ⟨962, 963, true, 340896134, 635333454, 595067592, 935168270⟩]⟩
def r8 : Row := ⟨true, 26782384, 36747485, true, 14390835, 19827124, [⟨61, 62, false, 1248765888, 1939826667, 727874906, 1330868231⟩, ⟨112, 113, true, 312003370, 365137381, 224970625, 322100868⟩, ⟨163, 164, false, 144659834, 153630987, 113675048, 147524051⟩, ⟨213, 214, true, 89913940, 95304706, 80673460, 94961348⟩, ⟨264, 265, false, 68610537, 76827767, 69977922, 76827767⟩, ⟨317, 318, true, 68020723, 79818362, 77517519, 80389919⟩, ⟨378, 379, false, 79201740, 86898282, 81739512, 86898282⟩, ⟨444, 445, true, 71755212, 73906703, 61417072, 72595008⟩, ⟨506, 507, false, 44740439, 48492544, 34999517, 45707213⟩, ⟨558, 559, true, 30416567, 31457651, 25371387, 31038134⟩, ⟨609, 610, false, 23831038, 25484124, 21704980, 25426810⟩, ⟨660, 661, true, 21912785, 23937712, 20917933, 23937712⟩, ⟨710, 711, false, 22340056, 25568234, 23389336, 25568379⟩, ⟨760, 761, true, 25741032, 30931718, 29519110, 31130385⟩, ⟨811, 812, false, 35523511, 43597546, 42471106, 44149131⟩, ⟨861, 862, true, 55938037, 73678236, 72138968, 77212968⟩, ⟨911, 913, false, 112454749, 171188745, 160275315, 193276217⟩, ⟨962, 963, true, 379335428, 705594834, 660997252, 1037549771⟩]⟩
def r9 : Row := ⟨true, 22084802, 30349582, true, 16247990, 22371979, [⟨61, 62, false, 1023919110, 1596862941, 593305132, 1091908625⟩, ⟨112, 113, true, 252926517, 298631852, 180461046, 261425548⟩, ⟨162, 163, false, 117273720, 123431505, 93261276, 119411751⟩, ⟨213, 214, true, 71062359, 74077907, 60361370, 73319627⟩, ⟨264, 265, false, 52426532, 56322355, 48483013, 56239897⟩, ⟨315, 316, true, 46413901, 52320687, 47891571, 52320687⟩, ⟨367, 368, false, 49973204, 60480295, 59726419, 61509456⟩, ⟨428, 429, true, 64775912, 72951829, 70153996, 73129729⟩, ⟨495, 496, false, 65707959, 67590833, 56259190, 66462655⟩, ⟨556, 557, true, 45246505, 48114670, 36161993, 46094751⟩, ⟨608, 609, false, 32379671, 33955380, 28260710, 33728715⟩, ⟨659, 660, true, 27373319, 29865637, 26178754, 29865602⟩, ⟨710, 711, false, 27384841, 30700570, 27629119, 30700666⟩, ⟨760, 761, true, 30666648, 36334549, 34303509, 36463843⟩, ⟨811, 812, false, 41442829, 50383751, 48727022, 50894358⟩, ⟨861, 862, true, 64409932, 84280508, 82578104, 88024470⟩, ⟨911, 912, false, 128335359, 188575683, 182180843, 217414253⟩, ⟨962, 963, true, 430258958, 798265015, 747990696, 1172273701⟩]⟩
def r10 : Row := ⟨true, 18722050, 25757269, true, 18722050, 25757269, [⟨61, 62, false, 864482420, 1352031080, 498811470, 922289409⟩, ⟨112, 113, true, 211813276, 251644797, 150012876, 219114850⟩, ⟨162, 163, false, 96927397, 102740652, 76212279, 98829788⟩, ⟨213, 214, true, 58408928, 60346587, 47897089, 59369853⟩, ⟨263, 264, false, 41084827, 44267366, 38088747, 44209860⟩, ⟨314, 315, true, 34904845, 38669123, 34527449, 38669047⟩, ⟨365, 366, false, 34435810, 40017668, 37572553, 40097270⟩, ⟨417, 418, true, 40639084, 50527817, 49741576, 52008544⟩, ⟨478, 479, false, 57904090, 66810157, 65573085, 67354315⟩, ⟨545, 546, true, 65573085, 67354315, 57904090, 66810157⟩, ⟨606, 607, false, 49741576, 52008544, 40639084, 50527817⟩, ⟨658, 659, true, 37572553, 40097270, 34435810, 40017668⟩, ⟨709, 710, false, 34527449, 38669047, 34904845, 38669123⟩, ⟨760, 761, true, 38088747, 44209860, 41084827, 44267366⟩, ⟨810, 811, false, 47897089, 59369853, 58408928, 60346587⟩, ⟨861, 862, true, 76212279, 98829788, 96927397, 102740652⟩, ⟨911, 912, false, 150012876, 219114850, 211813276, 251644797⟩, ⟨962, 963, true, 498811470, 922289409, 864482420, 1352031080⟩]⟩
def rows : List Row := [r0, r1, r2, r3, r4, r5, r6, r7, r8, r9, r10]

theorem c0 : cellsOk P (offc P) Z rows 1 0 32 = true := by decide +kernel
theorem c1 : cellsOk P (offc P) Z rows 1 32 32 = true := by decide +kernel
theorem c2 : cellsOk P (offc P) Z rows 1 64 32 = true := by decide +kernel
theorem c3 : cellsOk P (offc P) Z rows 1 96 32 = true := by decide +kernel
theorem c4 : cellsOk P (offc P) Z rows 1 128 32 = true := by decide +kernel
theorem c5 : cellsOk P (offc P) Z rows 1 160 32 = true := by decide +kernel
theorem c6 : cellsOk P (offc P) Z rows 1 192 32 = true := by decide +kernel
theorem c7 : cellsOk P (offc P) Z rows 1 224 32 = true := by decide +kernel

end Gslib.Lob.Cert21
