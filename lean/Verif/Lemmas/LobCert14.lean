import Verif.Lemmas.LobCertified

/-! Certificate for `lob_bnd_setup` with n = 14; generated. The data are found numerically, the kernel checks them. -/

namespace Gslib.Lob.Cert14
open Gslib.Lob Gslib.Poly
set_option maxRecDepth 100000
set_option Elab.async false

def P : Par := ⟨14, 512, 11, 6, 19, 1839, 1669, 2408, 2 ^ 2407⟩
def Z : List ℕ := [0, 40064954732739098644899837984575610933608481427350, 132198946169652748999779797091735786750127646905560, 271131400908673859415327599479118404342660468305680, 449360597071352944683377294140919365537861680446090, 657275986657287154956096596358325355166886465859690, 883668131116296132341223290263839832058490955743720, 1116331868883703867658776709736160167941509044256280, 1342724013342712845043903403641674644833113534140310, 1550639402928647055316622705859080634462138319553910, 1728868599091326140584672400520881595657339531694320, 1867801053830347251000220202908264213249872353094440, 1959935045267260901355100162015424389066391518572650, 2000000000000000000000000000000000000000000000000000]
def r0 : Row := ⟨false, 329164559, 383204157, true, 9204897, 12633105, [⟨77, 78, true, 928316011, 1711733353, 434009825, 1027742622⟩, ⟨118, 119, false, 169656948, 233653481, 99680850, 180644139⟩, ⟨157, 158, true, 60186175, 70398726, 40699416, 62721897⟩, ⟨196, 197, false, 29684903, 32144001, 21592608, 30572082⟩, ⟨234, 235, true, 18521039, 19704908, 15270922, 19515379⟩, ⟨273, 274, false, 13892558, 15164944, 12250402, 15123257⟩, ⟨311, 312, true, 12258269, 14309346, 12531801, 14309377⟩, ⟨350, 351, false, 13819552, 16671406, 15045164, 16674987⟩, ⟨388, 389, true, 18475667, 24593489, 24065325, 25180630⟩, ⟨426, 427, false, 32670625, 50368348, 48301031, 56982457⟩, ⟨465, 466, true, 102050849, 206032619, 189701480, 310004944⟩]⟩
def r1 : Row := ⟨false, 242254843, 287855521, true, 9392312, 12888422, [⟨67, 68, true, 1440251164, 2367904740, 805225975, 1562130031⟩, ⟨117, 118, false, 202875841, 295019758, 115720119, 217261440⟩, ⟨157, 158, true, 65252225, 79094664, 42794040, 68313583⟩, ⟨196, 197, false, 31451775, 34473396, 22536694, 32466030⟩, ⟨234, 235, true, 19573051, 20691896, 15839437, 20436356⟩, ⟨273, 274, false, 14483508, 15735940, 12626500, 15679668⟩, ⟨311, 312, true, 12682401, 14742075, 12869466, 14742092⟩, ⟨350, 351, false, 14217789, 17104916, 15403990, 17105328⟩, ⟨388, 389, true, 18945191, 25171229, 24636245, 25755185⟩, ⟨426, 427, false, 33426527, 51468968, 49363486, 58182357⟩, ⟨465, 466, true, 104249853, 210321990, 193665194, 316352593⟩]⟩
def r2 : Row := ⟨false, 129182407, 161119095, true, 9853669, 13516610, [⟨55, 56, true, 1722223487, 2609866180, 1064756860, 1842977650⟩, ⟨107, 108, false, 317153588, 412341611, 213248001, 333236538⟩, ⟨155, 156, true, 88504449, 112182851, 57743359, 92984874⟩, ⟨195, 196, false, 37659697, 41544187, 27090236, 38891626⟩, ⟨234, 235, true, 22430085, 23372665, 17294164, 22899061⟩, ⟨273, 274, false, 16045230, 17221034, 13577840, 17122415⟩, ⟨311, 312, true, 13775465, 15845251, 13716714, 15845251⟩, ⟨349, 350, false, 14413053, 18094470, 16899161, 18192067⟩, ⟨388, 389, true, 20120152, 26607977, 26057154, 27180682⟩, ⟨426, 427, false, 35304229, 54191580, 51992966, 61142485⟩, ⟨465, 466, true, 109684249, 220897014, 203439809, 331984036⟩]⟩
def r3 : Row := ⟨false, 65985510, 86585685, true, 10641917, 14588837, [⟨48, 49, true, 1371842187, 2044311292, 855695475, 1464883902⟩, ⟨95, 96, false, 350055958, 402097503, 265030661, 361453813⟩, ⟨146, 147, true, 130532890, 152175162, 95949867, 135185562⟩, ⟨194, 195, false, 50728496, 60930705, 34464252, 52925591⟩, ⟨233, 234, true, 27796633, 29165244, 21388674, 28414011⟩, ⟨272, 273, false, 18561129, 20119779, 16236670, 20046435⟩, ⟨311, 312, true, 15819330, 17886952, 15216540, 17886952⟩, ⟨349, 350, false, 16168373, 20038054, 18542047, 20115086⟩, ⟨388, 389, true, 22192462, 29111246, 28427395, 29656673⟩, ⟨426, 427, false, 38568790, 58887035, 56532083, 66220668⟩, ⟨465, 466, true, 119039008, 239017374, 220196797, 358709056⟩]⟩
def r4 : Row := ⟨false, 40377999, 54071173, true, 11858867, 16241593, [⟨47, 48, true, 839386691, 1307303025, 486030524, 903762353⟩, ⟨87, 88, false, 261761566, 277776810, 208693442, 267573153⟩, ⟨134, 135, true, 139198095, 144438293, 115741183, 141483938⟩, ⟨185, 186, false, 75326752, 82722682, 58078045, 77393006⟩, ⟨232, 233, true, 38722452, 43413868, 28101982, 40008729⟩, ⟨272, 273, false, 24669080, 25679774, 19350795, 25241035⟩, ⟨311, 312, true, 19485621, 21407218, 17655104, 21391225⟩, ⟨349, 350, false, 19141161, 23225762, 21166671, 23255974⟩, ⟨388, 389, true, 25560639, 33099013, 32026063, 33616404⟩, ⟨426, 427, false, 43751937, 66245411, 63656342, 74110822⟩, ⟨465, 466, true, 133655719, 267122617, 246207662, 400012565⟩]⟩
def r5 : Row := ⟨false, 27776526, 37568243, true, 13684299, 18714781, [⟨47, 48, true, 556381756, 893366261, 306624114, 602412811⟩, ⟨86, 87, false, 165417236, 183352483, 121898181, 170668954⟩, ⟨126, 127, true, 92830051, 101250045, 88172875, 101247302⟩, ⟨172, 173, false, 73595137, 79957251, 71636234, 79956201⟩, ⟨223, 224, true, 56908491, 59255667, 46689542, 57906594⟩, ⟨270, 271, false, 36079518, 38450278, 27749946, 36955321⟩, ⟨310, 311, true, 25724178, 27872849, 22813557, 27799111⟩, ⟨349, 350, false, 24294518, 28467008, 25293848, 28467421⟩, ⟨387, 388, true, 29128454, 38804380, 37961587, 39793655⟩, ⟨426, 427, false, 51864264, 77534153, 74611729, 86055696⟩, ⟨465, 466, true, 155981197, 309575036, 285543019, 462063175⟩]⟩
def r6 : Row := ⟨false, 20727956, 28191078, true, 16439515, 22434174, [⟨46, 47, true, 440891312, 702431002, 246741850, 476655600⟩, ⟨85, 86, false, 120004204, 133539785, 87334053, 123968770⟩, ⟨124, 125, true, 62037206, 67012224, 55235444, 66788393⟩, ⟨164, 165, false, 47014467, 56574084, 53551537, 56791258⟩, ⟨211, 212, true, 51660135, 58313057, 54128154, 58313057⟩, ⟨262, 263, false, 51346488, 53020856, 43541170, 52443882⟩, ⟨309, 310, true, 39950171, 41866084, 31323399, 40776995⟩, ⟨348, 349, false, 32734359, 37682136, 33331461, 37682472⟩, ⟨387, 388, true, 38107980, 49007436, 47463609, 49743802⟩, ⟨426, 427, false, 64918008, 95150762, 91770547, 104315787⟩, ⟨465, 466, true, 190601005, 374315463, 345636670, 555920444⟩]⟩
def rows : List Row := [r0, r1, r2, r3, r4, r5, r6]

theorem c0 : cellsOk P (offc P) Z rows 2 0 32 = true := by decide +kernel
theorem c1 : cellsOk P (offc P) Z rows 2 32 32 = true := by decide +kernel
theorem c2 : cellsOk P (offc P) Z rows 2 64 32 = true := by decide +kernel
theorem c3 : cellsOk P (offc P) Z rows 2 96 32 = true := by decide +kernel
theorem c4 : cellsOk P (offc P) Z rows 2 128 32 = true := by decide +kernel
theorem c5 : cellsOk P (offc P) Z rows 2 160 32 = true := by decide +kernel
theorem c6 : cellsOk P (offc P) Z rows 2 192 32 = true := by decide +kernel
theorem c7 : cellsOk P (offc P) Z rows 2 224 32 = true := by decide +kernel
theorem c8 : cellsOk P (offc P) Z rows 2 256 32 = true := by decide +kernel
theorem c9 : cellsOk P (offc P) Z rows 2 288 32 = true := by decide +kernel
theorem c10 : cellsOk P (offc P) Z rows 2 320 32 = true := by decide +kernel
theorem c11 : cellsOk P (offc P) Z rows 2 352 32 = true := by decide +kernel
theorem c12 : cellsOk P (offc P) Z rows 2 384 32 = true := by decide +kernel
theorem c13 : cellsOk P (offc P) Z rows 2 416 32 = true := by decide +kernel
theorem c14 : cellsOk P (offc P) Z rows 2 448 32 = true := by decide +kernel
theorem c15 : cellsOk P (offc P) Z rows 2 480 32 = true := by decide +kernel

theorem cells : ∀ k < 512, cellOk P (offc P) Z rows k (cellC 2 k) (cellR 2 k) = true := by
  intro k hk
  by_cases h0 : k < 32
  · exact cellsOk_iff c0 k (by omega) (by omega)
  by_cases h1 : k < 64
  · exact cellsOk_iff c1 k (by omega) (by omega)
  by_cases h2 : k < 96
  · exact cellsOk_iff c2 k (by omega) (by omega)
  by_cases h3 : k < 128
  · exact cellsOk_iff c3 k (by omega) (by omega)
  by_cases h4 : k < 160
  · exact cellsOk_iff c4 k (by omega) (by omega)
  by_cases h5 : k < 192
  · exact cellsOk_iff c5 k (by omega) (by omega)
  by_cases h6 : k < 224
  · exact cellsOk_iff c6 k (by omega) (by omega)
  by_cases h7 : k < 256
  · exact cellsOk_iff c7 k (by omega) (by omega)
  by_cases h8 : k < 288
  · exact cellsOk_iff c8 k (by omega) (by omega)
  by_cases h9 : k < 320
  · exact cellsOk_iff c9 k (by omega) (by omega)
  by_cases h10 : k < 352
  · exact cellsOk_iff c10 k (by omega) (by omega)
  by_cases h11 : k < 384
  · exact cellsOk_iff c11 k (by omega) (by omega)
  by_cases h12 : k < 416
  · exact cellsOk_iff c12 k (by omega) (by omega)
  by_cases h13 : k < 448
  · exact cellsOk_iff c13 k (by omega) (by omega)
  by_cases h14 : k < 480
  · exact cellsOk_iff c14 k (by omega) (by omega)
  exact cellsOk_iff c15 k (by omega) (by omega)

theorem certified : Certified 14 P Z rows 2 where
  hn := rfl
  ok := ⟨by decide, rfl, by decide +kernel, by decide +kernel, by decide +kernel⟩
  win := ⟨by decide, by decide, by decide, by decide, by decide, by decide⟩
  M := by decide
  B := by decide
  le := by decide
  half := by decide
  stat := by decide +kernel
  cells := cells
  nodes := by decide +kernel

end Gslib.Lob.Cert14
