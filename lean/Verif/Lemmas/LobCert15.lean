import Verif.Lemmas.LobCertified

/-! Certificate for `lob_bnd_setup` with n = 15; generated. The data are found numerically, the kernel checks them. -/

namespace Gslib.Lob.Cert15
open Gslib.Lob Gslib.Poly
set_option maxRecDepth 100000
set_option Elab.async false

def P : Par := ⟨15, 512, 10, 5, 18, 2007, 1838, 2580, 2 ^ 2579⟩
def Z : List ℕ := [0, 34754073496161427204148607930398822292349864002910, 114917955777023701174598368517770348011285914792520, 236480310048184799295881524023708381822631479684710, 393746794530154288876470061363266492820268966240080, 579361945286327519078103061261419587015661794507570, 784646044636205761774320553727082287347842098796960, 1000000000000000000000000000000000000000000000000000, 1215353955363794238225679446272917712652157901203040, 1420638054713672480921896938738580412984338205492430, 1606253205469845711123529938636733507179731033759920, 1763519689951815200704118475976291618177368520315290, 1885082044222976298825401631482229651988714085207480, 1965245926503838572795851392069601177707650135997090, 2000000000000000000000000000000000000000000000000000]
def r0 : Row := ⟨true, 647648487, 758677441, true, 15582617, 21676499, [⟨71, 72, false, 1114486231, 1946245293, 588462589, 1239497454⟩, ⟨109, 110, true, 196759054, 260949882, 127801752, 209596724⟩, ⟨146, 147, false, 64508197, 75876830, 45799596, 67502848⟩, ⟨182, 183, true, 30846829, 33320462, 23607831, 31820306⟩, ⟨218, 219, false, 18617701, 19373448, 14944997, 19026855⟩, ⟨254, 255, true, 13147495, 13894059, 11301684, 13813875⟩, ⟨290, 291, false, 11031861, 11929835, 10089380, 11927940⟩, ⟨325, 326, true, 10502821, 12209478, 11144695, 12209641⟩, ⟨361, 362, false, 12466949, 15042770, 14190243, 15105957⟩, ⟨397, 398, true, 18313769, 23318201, 22800865, 23790408⟩, ⟨432, 433, false, 33118165, 48866396, 46668589, 55285504⟩, ⟨468, 469, true, 104199551, 199207301, 181907085, 290804331⟩]⟩
def r1 : Row := ⟨true, 475638384, 569169751, true, 15857308, 22056082, [⟨62, 63, false, 1665767885, 2639871073, 1004701344, 1816517837⟩, ⟨108, 110, true, 220308576, 331218821, 133298500, 254656248⟩, ⟨146, 147, false, 69877913, 84906695, 48286684, 73483440⟩, ⟨182, 183, true, 32674764, 35768328, 24678710, 33789563⟩, ⟨218, 219, false, 19440169, 20318271, 15489171, 19895575⟩, ⟨254, 255, true, 13682491, 14401629, 11639935, 14305561⟩, ⟨290, 291, false, 11389074, 12284139, 10345868, 12274961⟩, ⟨325, 326, true, 10791415, 12511818, 11398232, 12511974⟩, ⟨361, 362, false, 12762037, 15371215, 14480882, 15431732⟩, ⟨396, 398, true, 17432816, 23781549, 22619021, 24254795⟩, ⟨432, 433, false, 33766396, 49781564, 47547956, 56291791⟩, ⟨468, 469, true, 106124489, 202788778, 185188829, 295963597⟩]⟩
def r2 : Row := ⟨true, 252472294, 317748531, true, 16529403, 22984456, [⟨51, 52, false, 1961498485, 2891103808, 1284489533, 2109800472⟩, ⟨100, 101, true, 340823494, 445374065, 236114416, 360606607⟩, ⟨145, 146, false, 90088303, 117329550, 59601859, 95623082⟩, ⟨182, 183, true, 37691007, 43075395, 27394989, 39255612⟩, ⟨218, 219, false, 21621482, 22951923, 16881860, 22212773⟩, ⟨254, 255, true, 15092069, 15746837, 12496056, 15579062⟩, ⟨289, 290, false, 11854051, 13185457, 11566485, 13185404⟩, ⟨325, 326, true, 11520478, 13268851, 12028404, 13268988⟩, ⟨361, 362, false, 13498408, 16185906, 15198322, 16239048⟩, ⟨396, 397, true, 18335940, 24424983, 23726167, 25397993⟩, ⟨432, 433, false, 35362594, 52028840, 49708150, 58758388⟩, ⟨468, 469, true, 110847455, 211561887, 193229384, 308591546⟩]⟩
def r3 : Row := ⟨true, 128260700, 170180561, true, 17664742, 24551526, [⟨45, 46, false, 1502352406, 2200492996, 979716790, 1615176465⟩, ⟨88, 89, true, 392504689, 447404811, 309528491, 405962157⟩, ⟨136, 137, false, 138807673, 163388842, 104856611, 144469953⟩, ⟨180, 181, true, 53084172, 63122984, 38351263, 55498863⟩, ⟨217, 218, false, 26789841, 28590637, 20939062, 27544722⟩, ⟨253, 254, true, 17425006, 18341766, 14947829, 18226197⟩, ⟨289, 290, false, 13539325, 14827413, 12795525, 14827286⟩, ⟨325, 326, true, 12830828, 14605739, 13124993, 14605835⟩, ⟨361, 362, false, 14790410, 17598639, 16430690, 17636456⟩, ⟨396, 397, true, 19897609, 26361811, 25627240, 27351730⟩, ⟨432, 433, false, 38092007, 55851262, 53385165, 62939431⟩, ⟨468, 469, true, 118868231, 226414637, 206847315, 329937943⟩]⟩
def r4 : Row := ⟨true, 78060679, 105784919, true, 19387486, 26926522, [⟨44, 45, false, 917097614, 1400232554, 560622922, 994793666⟩, ⟨81, 82, true, 288826202, 308542142, 236044066, 296102033⟩, ⟨124, 126, false, 148553481, 156120892, 124760213, 153870899⟩, ⟨172, 173, true, 77605922, 86038881, 61546338, 80010678⟩, ⟨216, 217, false, 37177844, 42619335, 27635004, 38647621⟩, ⟨253, 254, true, 22291410, 23380040, 17786658, 22823164⟩, ⟨289, 290, false, 16546784, 17685346, 14799026, 17641986⟩, ⟨325, 326, true, 15029600, 16796611, 14866714, 16796611⟩, ⟨361, 362, false, 16873777, 19833273, 18349704, 19840244⟩, ⟨396, 397, true, 22356987, 29371972, 28587571, 30370982⟩, ⟨432, 433, false, 42314111, 61714573, 59032069, 69317705⟩, ⟨468, 469, true, 131141228, 249030443, 227595866, 362363189⟩]⟩
def r5 : Row := ⟨true, 53360265, 73064578, true, 21909273, 30396902, [⟨43, 44, false, 657511317, 1008994209, 399475768, 713956499⟩, ⟨80, 81, true, 181778642, 202686623, 139059914, 188157063⟩, ⟨117, 118, false, 101600821, 108994676, 96932317, 108990781⟩, ⟨160, 161, true, 78097658, 82809313, 74679983, 82807626⟩, ⟨208, 209, false, 54585461, 58262544, 44724884, 55916622⟩, ⟨252, 253, true, 31486324, 35104294, 23908429, 32588575⟩, ⟨288, 289, false, 21689178, 22943540, 19094040, 22846938⟩, ⟨325, 326, true, 18788795, 20440826, 17582974, 20440826⟩, ⟨360, 361, false, 19193683, 23201768, 22008221, 23313907⟩, ⟨396, 397, true, 26163241, 33937819, 33091206, 34910876⟩, ⟨432, 433, false, 48673927, 70435982, 67446431, 78726977⟩, ⟨468, 469, true, 149330773, 282306219, 258152599, 409901587⟩]⟩
def r6 : Row := ⟨true, 39520651, 54428772, true, 25590480, 35449648, [⟨43, 44, false, 477643182, 744113418, 283975591, 520273785⟩, ⟨79, 81, true, 126074365, 146590009, 91975891, 136038965⟩, ⟨116, 117, false, 69073430, 71762204, 58263228, 71009396⟩, ⟨153, 154, true, 51365378, 58506692, 54898992, 58506692⟩, ⟨196, 197, false, 51762299, 57034585, 53424743, 57034585⟩, ⟨243, 244, true, 47166806, 48346504, 40861956, 47863473⟩, ⟨287, 288, false, 32683736, 34555758, 26327319, 33478607⟩, ⟨324, 325, true, 25021769, 26911316, 23076500, 26911173⟩, ⟨360, 361, false, 24675456, 28867326, 26761953, 28872888⟩, ⟨396, 397, true, 32196668, 40957239, 40046605, 41813352⟩, ⟨432, 433, false, 58354362, 83465940, 80050718, 92612354⟩, ⟨468, 469, true, 176365765, 331243011, 303151594, 479448518⟩]⟩
def r7 : Row := ⟨true, 31065850, 42936141, true, 31065850, 42936141, [⟨43, 44, false, 370944613, 583209015, 217651295, 404821248⟩, ⟨79, 80, true, 99518045, 113575916, 73669829, 103510754⟩, ⟨115, 116, false, 50862499, 52851973, 42351410, 52217076⟩, ⟨151, 152, true, 34351690, 38615842, 34906034, 38615842⟩, ⟨188, 189, false, 32331244, 39963599, 39197468, 40671097⟩, ⟨232, 233, true, 42076668, 47884990, 46052107, 48016299⟩, ⟨279, 280, false, 46052107, 48016299, 42076668, 47884990⟩, ⟨323, 324, true, 39197468, 40671097, 32331244, 39963599⟩, ⟨360, 361, false, 34906034, 38615842, 34351690, 38615842⟩, ⟨396, 397, true, 42351410, 52217076, 50862499, 52851973⟩, ⟨432, 433, false, 73669829, 103510754, 99518045, 113575916⟩, ⟨468, 469, true, 217651295, 404821248, 370944613, 583209015⟩]⟩
def rows : List Row := [r0, r1, r2, r3, r4, r5, r6, r7]

theorem c0 : cellsOk P (offc P) Z rows 2 0 32 = true := by decide +kernel
theorem c1 : cellsOk P (offc P) Z rows 2 32 32 = true := by decide +kernel
theorem c2 : cellsOk P (offc P) Z rows 2 64 32 = true := by decide +kernel
theorem c3 : cellsOk P (offc P) Z rows 2 96 32 = true := by decide +kernel
theorem c4 : cellsOk P (offc P) Z rows 2 128 32 = true := by decide +kernel
theorem c5 : cellsOk P (offc P) Z rows 2 160 32 = true := by decide +kernel
theorem c6 : cellsOk P (offc P) Z rows 2 192 32 = true := by decide +kernel
theorem c7 : cellsOk P (offc P) Z rows 2 224 32 = true := by decide +kernel
theorem c8 : cellsOk P (offc P) Z rows 2 256 32 = true := by decide +kernel
theorem c9 : cellsOk P (offc P) Z rows 2 288 32 = true := by decide +kernel
theorem c10 : cellsOk P (offc P) Z rows 2 320 32 = true := by decide +kernel
theorem c11 : cellsOk P (offc P) Z rows 2 352 32 = true := by decide +kernel
theorem c12 : cellsOk P (offc P) Z rows 2 384 32 = true := by decide +kernel
theorem c13 : cellsOk P (offc P) Z rows 2 416 32 = true := by decide +kernel
theorem c14 : cellsOk P (offc P) Z rows 2 448 32 = true := by decide +kernel
theorem c15 : cellsOk P (offc P) Z rows 2 480 32 = true := by decide +kernel

theorem cells : ∀ k < 512, cellOk P (offc P) Z rows k (cellC 2 k) (cellR 2 k) = true := by
  intro k hk
  by_cases h0 : k < 32
  · exact cellsOk_iff c0 k (by omega) (by omega)
  by_cases h1 : k < 64
  · exact cellsOk_iff c1 k (by omega) (by omega)
  by_cases h2 : k < 96
  · exact cellsOk_iff c2 k (by omega) (by omega)
  by_cases h3 : k < 128
  · exact cellsOk_iff c3 k (by omega) (by omega)
  by_cases h4 : k < 160
  · exact cellsOk_iff c4 k (by omega) (by omega)
  by_cases h5 : k < 192
  · exact cellsOk_iff c5 k (by omega) (by omega)
  by_cases h6 : k < 224
  · exact cellsOk_iff c6 k (by omega) (by omega)
  by_cases h7 : k < 256
  · exact cellsOk_iff c7 k (by omega) (by omega)
  by_cases h8 : k < 288
  · exact cellsOk_iff c8 k (by omega) (by omega)
  by_cases h9 : k < 320
  · exact cellsOk_iff c9 k (by omega) (by omega)
  by_cases h10 : k < 352
  · exact cellsOk_iff c10 k (by omega) (by omega)
  by_cases h11 : k < 384
  · exact cellsOk_iff c11 k (by omega) (by omega)
  by_cases h12 : k < 416
  · exact cellsOk_iff c12 k (by omega) (by omega)
  by_cases h13 : k < 448
  · exact cellsOk_iff c13 k (by omega) (by omega)
  by_cases h14 : k < 480
  · exact cellsOk_iff c14 k (by omega) (by omega)
  exact cellsOk_iff c15 k (by omega) (by omega)

theorem certified : Certified 15 P Z rows 2 where
  hn := rfl
  ok := ⟨by decide, rfl, by decide +kernel, by decide +kernel, by decide +kernel⟩
  win := ⟨by decide, by decide, by decide, by decide, by decide, by decide⟩
  M := by decide
  B := by decide
  le := by decide
  half := by decide
  stat := by decide +kernel
  cells := cells
  nodes := by decide +kernel

end Gslib.Lob.Cert15
