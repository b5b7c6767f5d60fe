import Verif.Lemmas.LobCertified

/-! Certificate for `lob_bnd_setup` with n = 16; generated. The data are found numerically, the kernel checks them. -/

namespace Gslib.Lob.Cert16
open Gslib.Lob Gslib.Poly
set_option maxRecDepth 100000
set_option Elab.async false

def P : Par := ⟨16, 512, 10, 5, 17, 2176, 2006, 2752, 2 ^ 2751⟩
def Z : List ℕ := [0, 30431953729782067047757261632540758611009253496170, 100799466906527907005371738480150523250002390954860, 207991708138184936068911729036854294191926172019800, 347611297117506910532116780359418519678441987170430, 513940578112862388218109214153125303111022695701750, 700169531099236791901646545277699352184539023092220, 898673726478050552156966994954082237466759085599810, 1101326273521949447843033005045917762533240914400190, 1299830468900763208098353454722300647815460976907780, 1486059421887137611781890785846874696888977304298250, 1652388702882493089467883219640581480321558012829570, 1792008291861815063931088270963145705808073827980200, 1899200533093472092994628261519849476749997609045140, 1969568046270217932952242738367459241388990746503830, 2000000000000000000000000000000000000000000000000000]
def r0 : Row := ⟨false, 622132220, 731501898, true, 13040666, 18287548, [⟨67, 68, true, 2243040574, 4150395592, 1074253597, 2526429092⟩, ⟨102, 103, false, 417483938, 566191840, 257547230, 447432072⟩, ⟨137, 138, true, 131004891, 159576378, 86792706, 138273448⟩, ⟨170, 171, false, 62781880, 68006093, 46634628, 64930038⟩, ⟨204, 205, true, 35969017, 37885046, 27571041, 36953527⟩, ⟨237, 238, false, 23919979, 25772222, 20702105, 25662244⟩, ⟨271, 272, true, 18993604, 20643461, 16792073, 20601998⟩, ⟨304, 305, false, 16815205, 19235938, 16717930, 19235938⟩, ⟨337, 338, true, 17131402, 20901083, 19190035, 20927979⟩, ⟨371, 372, false, 21813114, 27010220, 25181519, 27129444⟩, ⟨404, 405, true, 31557715, 42784231, 41544501, 44222199⟩, ⟨437, 438, false, 58907401, 91873616, 87242615, 105267457⟩, ⟨471, 472, true, 193647027, 389498607, 353581953, 580253586⟩]⟩
def r1 : Row := ⟨false, 456198562, 548207975, true, 13241624, 18567699, [⟨58, 59, true, 3605318697, 5903536582, 2073284893, 3958847922⟩, ⟨101, 102, false, 506254736, 722779275, 305112786, 545854228⟩, ⟨136, 137, true, 149828657, 180329505, 101721889, 157690059⟩, ⟨170, 171, false, 66468941, 72950597, 48673073, 68926403⟩, ⟨204, 205, true, 37512636, 39752180, 28519301, 38597997⟩, ⟨237, 238, false, 24896921, 26704415, 21303005, 26564120⟩, ⟨271, 272, true, 19597516, 21238720, 17197377, 21182433⟩, ⟨304, 305, false, 17261523, 19697796, 17074177, 19697796⟩, ⟨337, 338, true, 17523353, 21334776, 19558637, 21355850⟩, ⟨371, 372, false, 22248641, 27510543, 25621071, 27626290⟩, ⟨404, 405, true, 32131984, 43518815, 42263825, 44962888⟩, ⟨437, 438, false, 59907001, 93367429, 88669297, 106934227⟩, ⟨471, 472, true, 196759415, 395600759, 359139040, 589235221⟩]⟩
def r2 : Row := ⟨false, 241363448, 305399710, true, 13730893, 19249564, [⟨48, 49, true, 4157029145, 6334619729, 2595685460, 4502699197⟩, ⟨93, 94, false, 751951530, 986448834, 510323815, 797281505⟩, ⟨135, 136, true, 194725595, 252891277, 126511732, 206960994⟩, ⟨170, 171, false, 76593513, 87874515, 53802778, 80035055⟩, ⟨204, 205, true, 41597481, 44846951, 30927984, 42976880⟩, ⟨237, 238, false, 27477614, 29129977, 22822614, 28902324⟩, ⟨271, 272, true, 21147947, 22752272, 18209442, 22654892⟩, ⟨304, 305, false, 18388190, 20854157, 17957250, 20854157⟩, ⟨337, 338, true, 18501124, 22409230, 20466782, 22414765⟩, ⟨371, 372, false, 23324937, 28741125, 26698088, 28847434⟩, ⟨404, 405, true, 33542969, 45317640, 44026145, 46774053⟩, ⟨437, 438, false, 62353181, 97014558, 92153616, 110997741⟩, ⟨471, 472, true, 204353639, 410470112, 372682464, 611107298⟩]⟩
def r3 : Row := ⟨false, 122137028, 163117111, true, 14549834, 20390208, [⟨42, 43, true, 3280054363, 4923200823, 2061213857, 3545030824⟩, ⟨82, 83, false, 851300985, 970813069, 658607841, 882109357⟩, ⟨127, 128, true, 292144713, 346827588, 214469926, 305047387⟩, ⟨169, 170, false, 102968008, 127997320, 68886445, 108737438⟩, ⟨203, 204, true, 51582023, 55810414, 38557626, 53307282⟩, ⟨237, 238, false, 32554303, 33901194, 25544268, 33323483⟩, ⟨271, 272, true, 24025955, 25507409, 19984150, 25322644⟩, ⟨304, 305, false, 20410523, 22896386, 19485997, 22896359⟩, ⟨337, 338, true, 20215893, 24268430, 22021245, 24268983⟩, ⟨371, 372, false, 25178419, 30841089, 28522575, 30928390⟩, ⟨404, 405, true, 35946040, 48361660, 47011182, 49830516⟩, ⟨437, 438, false, 66487516, 103151558, 98020151, 117816580⟩, ⟨471, 472, true, 217117625, 435398569, 395395166, 647731924⟩]⟩
def r4 : Row := ⟨false, 74021696, 101015338, true, 15775328, 22095550, [⟨41, 42, true, 2007161890, 3141212010, 1178159467, 2189164971⟩, ⟨76, 77, false, 614427736, 664949095, 485180614, 632587707⟩, ⟨116, 117, true, 317544550, 329249971, 267121450, 323462928⟩, ⟨161, 162, false, 155821108, 175924933, 118788851, 161456282⟩, ⟨202, 203, true, 71471846, 83431331, 50777308, 74695897⟩, ⟨236, 237, false, 41285036, 43133632, 32451492, 42278601⟩, ⟨270, 271, true, 28234275, 30349093, 24494851, 30225475⟩, ⟨304, 305, false, 23798105, 26225251, 21893911, 26225052⟩, ⟨337, 338, true, 22980106, 27200462, 24429126, 27200942⟩, ⟨371, 372, false, 28079464, 34080282, 31303712, 34131065⟩, ⟨404, 405, true, 39641426, 52995440, 51561919, 54462914⟩, ⟨437, 438, false, 72768806, 112411345, 106880136, 128060677⟩, ⟨471, 472, true, 236341840, 472795951, 429485291, 702572993⟩]⟩
def r5 : Row := ⟨false, 50345738, 69436785, true, 17534744, 24540607, [⟨40, 41, true, 1441023353, 2263196930, 842602750, 1572838586⟩, ⟨41, 42, true, 1313976614, 2120865976, 734946470, 1442586792⟩, ⟨75, 76, false, 384720095, 435074819, 282577124, 400108350⟩, ⟨109, 110, true, 208968849, 229102272, 202437630, 229092140⟩, ⟨150, 151, false, 160476118, 168873417, 146177813, 168400966⟩, ⟨194, 195, true, 106975093, 113975249, 86186325, 109715955⟩, ⟨235, 236, false, 58568056, 64860307, 43724954, 60677174⟩, ⟨270, 271, true, 37627952, 39265705, 29511613, 38521892⟩, ⟨303, 304, false, 28403359, 31777913, 27183806, 31777702⟩, ⟨337, 338, true, 27418582, 31749563, 28059624, 31749875⟩, ⟨370, 371, false, 30524823, 38637443, 36764339, 38943721⟩, ⟨404, 405, true, 45163618, 59816255, 58275353, 61269621⟩, ⟨437, 438, false, 81988666, 125866133, 119771742, 142850935⟩, ⟨471, 472, true, 264202256, 526682255, 478641474, 781378320⟩]⟩
def r6 : Row := ⟨false, 37063877, 51422558, true, 20036735, 28010988, [⟨40, 41, true, 1041101428, 1661032391, 594677006, 1140094345⟩, ⟨74, 75, false, 277079665, 312862343, 202223657, 288318128⟩, ⟨108, 109, true, 141798945, 150153610, 121542750, 149191804⟩, ⟨143, 144, false, 103268069, 118820999, 109515414, 118820999⟩, ⟨183, 184, true, 99854494, 111145948, 102637600, 111145948⟩, ⟨228, 229, false, 84858690, 89295831, 69181054, 86797419⟩, ⟨268, 269, true, 55654239, 59279064, 43468804, 57194219⟩, ⟨303, 304, false, 39158387, 41700831, 33572060, 41485159⟩, ⟨337, 338, true, 34875344, 39102716, 33569643, 39102716⟩, ⟨370, 371, false, 37239633, 46091114, 43180369, 46311551⟩, ⟨404, 405, true, 53483063, 69867231, 68200498, 71294143⟩, ⟨437, 438, false, 95521233, 145328884, 138456986, 164048543⟩, ⟨471, 472, true, 304354250, 603707825, 548977923, 893584269⟩]⟩
def r7 : Row := ⟨false, 28927314, 40279839, true, 23630650, 32982321, [⟨40, 41, true, 803019888, 1293531341, 452178555, 881146357⟩, ⟨74, 75, false, 208296787, 240840929, 147881696, 217674256⟩, ⟨108, 109, true, 104956295, 109860687, 82384599, 107541079⟩, ⟨142, 143, false, 71362349, 78047783, 66086436, 78045626⟩, ⟨176, 177, true, 63207457, 78115191, 75988442, 78915867⟩, ⟨217, 218, false, 77859267, 88190158, 82618892, 88190244⟩, ⟨261, 262, true, 79537645, 82198703, 68367079, 81490703⟩, ⟨302, 303, false, 59582199, 63147517, 46613397, 61166582⟩, ⟨336, 337, true, 46860110, 51996022, 44633597, 51996022⟩, ⟨370, 371, false, 48486645, 57910227, 52920611, 57912282⟩, ⟨404, 405, true, 66475466, 85054463, 82505845, 86294883⟩, ⟨437, 438, false, 115860086, 173970307, 166034014, 194824508⟩, ⟨471, 472, true, 363135595, 715159731, 650900480, 1055035143⟩]⟩
def rows : List Row := [r0, r1, r2, r3, r4, r5, r6, r7]

theorem c0 : cellsOk P (offc P) Z rows 2 0 32 = true := by decide +kernel
theorem c1 : cellsOk P (offc P) Z rows 2 32 32 = true := by decide +kernel
theorem c2 : cellsOk P (offc P) Z rows 2 64 32 = true := by decide +kernel
theorem c3 : cellsOk P (offc P) Z rows 2 96 32 = true := by decide +kernel
theorem c4 : cellsOk P (offc P) Z rows 2 128 32 = true := by decide +kernel
theorem c5 : cellsOk P (offc P) Z rows 2 160 32 = true := by decide +kernel
theorem c6 : cellsOk P (offc P) Z rows 2 192 32 = true := by decide +kernel
theorem c7 : cellsOk P (offc P) Z rows 2 224 32 = true := by decide +kernel
theorem c8 : cellsOk P (offc P) Z rows 2 256 32 = true := by decide +kernel
theorem c9 : cellsOk P (offc P) Z rows 2 288 32 = true := by decide +kernel
theorem c10 : cellsOk P (offc P) Z rows 2 320 32 = true := by decide +kernel
theorem c11 : cellsOk P (offc P) Z rows 2 352 32 = true := by decide +kernel
theorem c12 : cellsOk P (offc P) Z rows 2 384 32 = true := by decide +kernel
theorem c13 : cellsOk P (offc P) Z rows 2 416 32 = true := by decide +kernel
theorem c14 : cellsOk P (offc P) Z rows 2 448 32 = true := by decide +kernel
theorem c15 : cellsOk P (offc P) Z rows 2 480 32 = true := by decide +kernel

theorem cells : ∀ k < 512, cellOk P (offc P) Z rows k (cellC 2 k) (cellR 2 k) = true := by
  intro k hk
  by_cases h0 : k < 32
  · exact cellsOk_iff c0 k (by omega) (by omega)
  by_cases h1 : k < 64
  · exact cellsOk_iff c1 k (by omega) (by omega)
  by_cases h2 : k < 96
  · exact cellsOk_iff c2 k (by omega) (by omega)
  by_cases h3 : k < 128
  · exact cellsOk_iff c3 k (by omega) (by omega)
  by_cases h4 : k < 160
  · exact cellsOk_iff c4 k (by omega) (by omega)
  by_cases h5 : k < 192
  · exact cellsOk_iff c5 k (by omega) (by omega)
  by_cases h6 : k < 224
  · exact cellsOk_iff c6 k (by omega) (by omega)
  by_cases h7 : k < 256
  · exact cellsOk_iff c7 k (by omega) (by omega)
  by_cases h8 : k < 288
  · exact cellsOk_iff c8 k (by omega) (by omega)
  by_cases h9 : k < 320
  · exact cellsOk_iff c9 k (by omega) (by omega)
  by_cases h10 : k < 352
  · exact cellsOk_iff c10 k (by omega) (by omega)
  by_cases h11 : k < 384
  · exact cellsOk_iff c11 k (by omega) (by omega)
  by_cases h12 : k < 416
  · exact cellsOk_iff c12 k (by omega) (by omega)
  by_cases h13 : k < 448
  · exact cellsOk_iff c13 k (by omega) (by omega)
  by_cases h14 : k < 480
  · exact cellsOk_iff c14 k (by omega) (by omega)
  exact cellsOk_iff c15 k (by omega) (by omega)

theorem certified : Certified 16 P Z rows 2 where
  hn := rfl
  ok := ⟨by decide, rfl, by decide +kernel, by decide +kernel, by decide +kernel⟩
  win := ⟨by decide, by decide, by decide, by decide, by decide, by decide⟩
  M := by decide
  B := by decide
  le := by decide
  half := by decide
  stat := by decide +kernel
  cells := cells
  nodes := by decide +kernel

end Gslib.Lob.Cert16
