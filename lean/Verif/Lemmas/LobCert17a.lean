import Verif.Lemmas.LobCertified

/-! Certificate for `lob_bnd_setup` with n = 17, part 1; generated. The data are found numerically, the kernel checks them. -/

namespace Gslib.Lob.Cert17
open Gslib.Lob Gslib.Poly
set_option maxRecDepth 100000
set_option Elab.async false

def P : Par := ⟨17, 1024, 18, 9, 31, 2345, 2175, 2924, 2 ^ 2923⟩
def Z : List ℕ := [0, 26867823368581685843020498126278569411040850877490, 89120004084426404376197493602273532469120548131270, 184303748778229692893249446762473345283597602932880, 308971019372315294605080642627546703193586937809580, 458614600669898460876266592495936748324853352035170, 627825566434522958092765319264742187440182685599720, 810488026481682611695736985246886028655007577077500, 1000000000000000000000000000000000000000000000000000, 1189511973518317388304263014753113971344992422922500, 1372174433565477041907234680735257812559817314400280, 1541385399330101539123733407504063251675146647964830, 1691028980627684705394919357372453296806413062190420, 1815696251221770307106750553237526654716402397067120, 1910879995915573595623802506397726467530879451868730, 1973132176631418314156979501873721430588959149122510, 2000000000000000000000000000000000000000000000000000]
def r0 : Row := ⟨true, 591566269, 689251766, true, 11060771, 15204084, [⟨126, 127, false, 2487400412, 4288214446, 1262336674, 2647715033⟩, ⟨193, 194, true, 426306522, 573611399, 264890254, 443384174⟩, ⟨257, 258, false, 138724283, 163818017, 96660700, 142541614⟩, ⟨321, 322, true, 61536334, 68128510, 45216759, 62853120⟩, ⟨384, 385, false, 34695780, 36721079, 26815540, 35247635⟩, ⟨446, 447, true, 22908772, 23920981, 19205417, 23625807⟩, ⟨509, 510, false, 17056343, 18164971, 15125950, 18077104⟩, ⟨572, 573, true, 14566087, 15806763, 13533568, 15787602⟩, ⟨634, 635, false, 13834536, 15694372, 14126664, 15694390⟩, ⟨697, 698, true, 15381772, 17894437, 16490342, 17915871⟩, ⟨759, 760, false, 19247841, 23756016, 23120852, 24082008⟩, ⟨822, 823, true, 29974521, 38878724, 38300256, 40354352⟩, ⟨884, 885, false, 58140086, 85060240, 82815118, 97684932⟩, ⟨947, 949, true, 186988967, 367628836, 331884175, 540090321⟩]⟩
def r1 : Row := ⟨true, 433988771, 516099327, true, 11210984, 15409561, [⟨110, 111, false, 3787122455, 5924196038, 2225644379, 3983555731⟩, ⟨191, 192, true, 518798223, 726900429, 316495992, 541135591⟩, ⟨256, 257, false, 154644369, 184270979, 107586618, 158986884⟩, ⟨320, 321, true, 66482605, 73062223, 49458609, 67839997⟩, ⟨383, 384, false, 36744969, 38499049, 28908032, 37269886⟩, ⟨446, 447, true, 23806899, 24771410, 19751578, 24427073⟩, ⟨509, 510, false, 17581989, 18674768, 15485338, 18571604⟩, ⟨572, 573, true, 14933915, 16172393, 13810044, 16148983⟩, ⟨634, 635, false, 14133922, 16004643, 14384181, 16004660⟩, ⟨697, 698, true, 15672247, 18208583, 16761838, 18228261⟩, ⟨759, 760, false, 19575852, 24137731, 23474783, 24462893⟩, ⟨822, 823, true, 30442863, 39459851, 38874983, 40943789⟩, ⟨884, 885, false, 58995443, 86271863, 83997920, 99045652⟩, ⟨947, 948, true, 189622055, 354505947, 336471633, 527198689⟩]⟩
def r2 : Row := ⟨true, 229962145, 287012185, true, 11575212, 15907677, [⟨90, 91, false, 4607539224, 6675227080, 2981483133, 4804149999⟩, ⟨175, 176, true, 799956780, 1021830161, 557291819, 825341050⟩, ⟨254, 255, false, 202021143, 256722055, 135068229, 208749329⟩, ⟨319, 320, true, 78389190, 87985679, 57513178, 80134044⟩, ⟨383, 384, false, 40770254, 43388181, 31409550, 41444401⟩, ⟨446, 447, true, 26171758, 27017356, 21132773, 26499694⟩, ⟨509, 510, false, 18929824, 19970322, 16383660, 19825092⟩, ⟨571, 572, true, 15525235, 17086949, 14919586, 17086924⟩, ⟨634, 635, false, 14879236, 16772332, 15017786, 16772344⟩, ⟨697, 698, true, 16388930, 18980290, 17426184, 18995339⟩, ⟨759, 760, false, 20380283, 25070889, 24337730, 25393220⟩, ⟨822, 823, true, 31586136, 40875288, 40275107, 42377794⟩, ⟨884, 885, false, 61077206, 89216176, 86872563, 102348755⟩, ⟨947, 948, true, 196017195, 366216755, 347603952, 544423881⟩]⟩
def r3 : Row := ⟨true, 116519121, 152949273, true, 12180264, 16734794, [⟨79, 80, false, 3587185668, 5139427117, 2329341187, 3736978890⟩, ⟨155, 156, true, 889125319, 1012592505, 693895949, 906936239⟩, ⟨239, 240, false, 302212564, 354650977, 226022913, 309351293⟩, ⟨317, 318, true, 106324630, 128081100, 74572285, 109306243⟩, ⟨382, 383, false, 49709609, 53982957, 37606185, 50645445⟩, ⟨446, 447, true, 29978880, 31372665, 23606997, 30400193⟩, ⟨509, 510, false, 21425891, 22362512, 17962563, 22092901⟩, ⟨571, 572, true, 17168984, 18711459, 16155970, 18699249⟩, ⟨634, 635, false, 16181285, 18101151, 16099644, 18101151⟩, ⟨696, 697, true, 17112531, 20238918, 18938720, 20300389⟩, ⟨759, 760, false, 21745660, 26645172, 25786214, 26960150⟩, ⟨822, 823, true, 33509607, 43246627, 42621670, 44782714⟩, ⟨884, 885, false, 64559800, 94127463, 91668793, 107847426⟩, ⟨947, 948, true, 206673945, 385697522, 366124826, 573051259⟩]⟩
def r4 : Row := ⟨true, 70497763, 94427544, true, 13075438, 17957712, [⟨77, 78, false, 2209776607, 3278689782, 1354127303, 2312467211⟩, ⟨143, 144, true, 648805364, 696127252, 523175744, 658726790⟩, ⟨219, 220, false, 325118376, 339032643, 273920073, 328745150⟩, ⟨302, 303, true, 159113448, 176466145, 125066990, 161995149⟩, ⟨380, 381, false, 69000183, 80348841, 49832392, 70707045⟩, ⟨444, 445, true, 38007482, 39871045, 30068708, 38546410⟩, ⟨508, 509, false, 25507077, 26527470, 21266256, 26175838⟩, ⟨571, 572, true, 19912559, 21371120, 18105081, 21320454⟩, ⟨634, 635, false, 18267693, 20206766, 17769309, 20206766⟩, ⟨696, 697, true, 18994262, 22270612, 20696955, 22314601⟩, ⟨759, 760, false, 23834701, 29030903, 27963765, 29328571⟩, ⟨822, 823, true, 36412071, 46801398, 46141365, 48380797⟩, ⟨884, 885, false, 69768653, 101440182, 98812876, 116009108⟩, ⟨947, 948, true, 222516806, 414580799, 393590461, 615435092⟩]⟩
def r5 : Row := ⟨true, 47792763, 64653686, true, 14340514, 19684336, [⟨77, 78, false, 1445533548, 2203145263, 849055486, 1517824032⟩, ⟨141, 142, true, 407243485, 454027514, 308390110, 415561605⟩, ⟨206, 207, false, 222022044, 234954610, 206708145, 234428755⟩, ⟨282, 283, true, 162941475, 169037802, 148367953, 168197312⟩, ⟨365, 366, false, 103289991, 110481467, 83854941, 104788343⟩, ⟨442, 443, true, 53926642, 60109521, 40688953, 55019255⟩, ⟨507, 508, false, 33015059, 34262675, 26524456, 33424361⟩, ⟨570, 571, true, 24153973, 25799622, 21794535, 25714472⟩, ⟨633, 634, false, 21111399, 23482919, 20829602, 23482919⟩, ⟨696, 697, true, 21871238, 25313138, 23282511, 25334182⟩, ⟨759, 760, false, 26935004, 32521695, 31112031, 32780648⟩, ⟨821, 822, true, 39039478, 51241525, 50426018, 53540963⟩, ⟨884, 885, false, 77246183, 111869778, 109007492, 127596701⟩, ⟨947, 948, true, 245061952, 455524345, 432535751, 675392615⟩]⟩
def r6 : Row := ⟨true, 35027977, 47649971, true, 16102115, 22085463, [⟨76, 77, false, 1090995775, 1664984189, 640410538, 1145710753⟩, ⟨140, 141, true, 286472663, 324865402, 211558618, 292935874⟩, ⟨204, 205, false, 148810643, 153533397, 124050230, 151092025⟩, ⟨269, 270, true, 105912359, 118518671, 110346560, 118518671⟩, ⟨345, 346, false, 100376695, 107345265, 98262826, 107345007⟩, ⟨428, 429, true, 79025508, 82673076, 65696762, 79962086⟩, ⟨505, 506, false, 47426556, 51834159, 36371189, 48297104⟩, ⟨569, 570, true, 32337056, 33765421, 27662820, 33429908⟩, ⟨633, 634, false, 26597346, 28777751, 24784659, 28745373⟩, ⟨696, 697, true, 26359876, 29913931, 27084562, 29914015⟩, ⟨759, 760, false, 31563811, 37626777, 35635493, 37833131⟩, ⟨821, 822, true, 44965660, 58508915, 57620440, 60874803⟩, ⟨884, 885, false, 87889823, 126579839, 123397175, 143835155⟩, ⟨947, 948, true, 276761170, 512781605, 487020760, 758997869⟩]⟩
def r7 : Row := ⟨true, 27187317, 37110462, true, 18563720, 25434543, [⟨76, 77, false, 836659518, 1288020532, 484547705, 879573282⟩, ⟨140, 141, true, 214016819, 247920627, 153926928, 219356406⟩, ⟨203, 204, false, 107628428, 111730970, 86826902, 108960528⟩, ⟨266, 267, true, 70940165, 77604998, 68783181, 77604663⟩, ⟨331, 332, false, 63217723, 75135193, 73493951, 75914960⟩, ⟨408, 409, true, 74037374, 81335122, 76386981, 81335122⟩, ⟨490, 491, false, 70270295, 71801850, 60630807, 70851841⟩, ⟨567, 568, true, 48411530, 51218047, 38568218, 49111786⟩, ⟨632, 633, false, 36092090, 38106051, 31920836, 37900877⟩, ⟨695, 696, true, 32976402, 37187503, 33611252, 37187576⟩, ⟨758, 759, false, 37555747, 45061005, 43003378, 45370938⟩, ⟨821, 822, true, 53750811, 69065172, 68089557, 71436287⟩, ⟨884, 885, false, 103226169, 147503522, 143887358, 166723278⟩, ⟨947, 948, true, 321656637, 593266169, 563652010, 876045658⟩]⟩
def r8 : Row := ⟨true, 22062927, 30182921, true, 22062927, 30182921, [⟨76, 77, false, 673577995, 1042860277, 386692395, 708627095⟩, ⟨139, 140, true, 173794007, 199642516, 125991954, 177995341⟩, ⟨202, 203, false, 83847943, 87150001, 67340022, 84912318⟩, ⟨265, 266, true, 53235155, 57242974, 49127082, 57133061⟩, ⟨329, 330, false, 44040470, 49811258, 45523587, 49811258⟩, ⟨394, 395, true, 46575248, 56795039, 56208878, 57940914⟩, ⟨470, 471, false, 62015880, 70975637, 69071653, 71419716⟩, ⟨553, 554, true, 69071653, 71419716, 62015880, 70975637⟩, ⟨629, 630, false, 56208878, 57940914, 46575248, 56795039⟩, ⟨694, 695, true, 45523587, 49811258, 44040470, 49811258⟩, ⟨758, 759, false, 49127082, 57133061, 53235155, 57242974⟩, ⟨821, 822, true, 67340022, 84912318, 83847943, 87150001⟩, ⟨884, 885, false, 125991954, 177995341, 173794007, 199642516⟩, ⟨947, 948, true, 386692395, 708627095, 673577995, 1042860277⟩]⟩
def rows : List Row := [r0, r1, r2, r3, r4, r5, r6, r7, r8]

theorem c0 : cellsOk P (offc P) Z rows 1 0 32 = true := by decide +kernel
theorem c1 : cellsOk P (offc P) Z rows 1 32 32 = true := by decide +kernel
theorem c2 : cellsOk P (offc P) Z rows 1 64 32 = true := by decide +kernel
theorem c3 : cellsOk P (offc P) Z rows 1 96 32 = true := by decide +kernel
theorem c4 : cellsOk P (offc P) Z rows 1 128 32 = true := by decide +kernel
theorem c5 : cellsOk P (offc P) Z rows 1 160 32 = true := by decide +kernel
theorem c6 : cellsOk P (offc P) Z rows 1 192 32 = true := by decide +kernel
theorem c7 : cellsOk P (offc P) Z rows 1 224 32 = true := by decide +kernel

end Gslib.Lob.Cert17
