import Verif.Lemmas.LobCertified

/-! Certificate for `lob_bnd_setup` with n = 11; generated. The data are found numerically, the kernel checks them. -/

namespace Gslib.Lob.Cert11
open Gslib.Lob Gslib.Poly
set_option maxRecDepth 100000
set_option Elab.async false

def P : Par := ⟨11, 256, 7, 4, 12, 1332, 1163, 1892, 2 ^ 1891⟩
def Z : List ℕ := [0, 65998569591940865667725863900616365460082669890040, 215516526336855581377582183891541896492802544905940, 434764673003794993529036030522248335716947854437980, 704241864413060608568088484440942491058993565651400, 1000000000000000000000000000000000000000000000000000, 1295758135586939391431911515559057508941006434348600, 1565235326996205006470963969477751664283052145562020, 1784483473663144418622417816108458103507197455094060, 1934001430408059134332274136099383634539917330109960, 2000000000000000000000000000000000000000000000000000]
def r0 : Row := ⟨true, 278932201, 321917855, true, 13032289, 17559156, [⟨49, 50, false, 262666327, 496659055, 124258380, 304802856⟩, ⟨76, 77, true, 49902587, 69152396, 28869355, 54741421⟩, ⟨101, 102, false, 21030078, 23824633, 14463195, 22207208⟩, ⟨126, 127, true, 12743801, 13529716, 9922625, 13371434⟩, ⟨151, 152, false, 9855038, 11256811, 9271729, 11256811⟩, ⟨176, 177, true, 10660941, 13453224, 12200796, 13459390⟩, ⟨200, 201, false, 14826264, 23637708, 22219687, 26136332⟩, ⟨225, 226, true, 38370620, 85746799, 75300576, 129931245⟩]⟩
def r1 : Row := ⟨true, 206793765, 243353425, true, 13473773, 18146894, [⟨43, 44, false, 378972822, 644997072, 209073390, 428354491⟩, ⟨75, 76, true, 61786301, 89035720, 35750219, 68038224⟩, ⟨101, 102, false, 22891150, 26823461, 15264462, 24339443⟩, ⟨126, 127, true, 13827093, 14527012, 10416759, 14293486⟩, ⟨151, 152, false, 10473017, 11854017, 9668444, 11853979⟩, ⟨176, 177, true, 11186511, 14025267, 12663568, 14026904⟩, ⟨200, 201, false, 15458910, 24540601, 23083644, 27070476⟩, ⟨225, 226, true, 39823372, 88770681, 77983222, 134379068⟩]⟩
def r2 : Row := ⟨true, 111941447, 137963822, true, 14593743, 19635805, [⟨35, 36, false, 465593982, 720325175, 288235292, 514597894⟩, ⟨69, 70, true, 91874689, 119799983, 61498056, 98757427⟩, ⟨100, 101, false, 30333031, 37993684, 19746400, 32539914⟩, ⟨126, 127, true, 16164311, 17522390, 11669507, 16874565⟩, ⟨151, 152, false, 12188535, 13460106, 10690169, 13459820⟩, ⟨176, 177, true, 12586606, 15515584, 13848039, 15517210⟩, ⟨200, 201, false, 17109289, 26862819, 25310852, 29452427⟩, ⟨225, 226, true, 43556181, 96476490, 84827611, 145674057⟩]⟩
def r3 : Row := ⟨true, 58257823, 75390135, true, 16619281, 22321035, [⟨31, 32, false, 354921460, 548321132, 216345593, 392629254⟩, ⟨61, 62, true, 102825276, 115760413, 78756601, 107389803⟩, ⟨94, 95, false, 44969795, 50733781, 33772965, 47051294⟩, ⟨125, 126, true, 22286681, 25475563, 15636635, 23497230⟩, ⟨150, 151, false, 15164974, 16881822, 13778887, 16881415⟩, ⟨175, 176, true, 14144183, 18257384, 16989010, 18357108⟩, ⟨200, 201, false, 20266981, 31179253, 29470377, 33823269⟩, ⟨225, 226, true, 50482249, 110539096, 97348202, 166142204⟩]⟩
def r4 : Row := ⟨true, 36503561, 48167729, true, 20036937, 26829740, [⟨30, 31, false, 229829104, 368796887, 131376406, 256844219⟩, ⟨56, 57, true, 77109701, 81334894, 61586992, 79477809⟩, ⟨86, 87, false, 45754936, 48595882, 41171280, 48496277⟩, ⟨119, 120, true, 32807947, 34332958, 26622171, 33698013⟩, ⟨149, 150, false, 23644957, 24724820, 19112744, 24479562⟩, ⟨175, 176, true, 19639170, 23689106, 21137737, 23690866⟩, ⟨200, 201, false, 26139857, 38805285, 36882159, 41466962⟩, ⟨225, 226, true, 62691378, 134632082, 118888509, 200784645⟩]⟩
def r5 : Row := ⟨true, 25875180, 34467973, true, 25875180, 34467973, [⟨30, 31, false, 156882618, 260212345, 85124506, 176830510⟩, ⟨55, 56, true, 50710129, 54901809, 37965254, 52813034⟩, ⟨81, 82, false, 30141194, 34891783, 31256392, 34891783⟩, ⟨111, 112, true, 29179444, 33875071, 31450125, 33875071⟩, ⟨144, 145, false, 31450125, 33875071, 29179444, 33875071⟩, ⟨174, 175, true, 31256392, 34891783, 30141194, 34891783⟩, ⟨200, 201, false, 37965254, 52813034, 50710129, 54901809⟩, ⟨225, 226, true, 85124506, 176830510, 156882618, 260212345⟩]⟩
def rows : List Row := [r0, r1, r2, r3, r4, r5]

theorem c0 : cellsOk P (offc P) Z rows 4 0 32 = true := by decide +kernel
theorem c1 : cellsOk P (offc P) Z rows 4 32 32 = true := by decide +kernel
theorem c2 : cellsOk P (offc P) Z rows 4 64 32 = true := by decide +kernel
theorem c3 : cellsOk P (offc P) Z rows 4 96 32 = true := by decide +kernel
theorem c4 : cellsOk P (offc P) Z rows 4 128 32 = true := by decide +kernel
theorem c5 : cellsOk P (offc P) Z rows 4 160 32 = true := by decide +kernel
theorem c6 : cellsOk P (offc P) Z rows 4 192 32 = true := by decide +kernel
theorem c7 : cellsOk P (offc P) Z rows 4 224 32 = true := by decide +kernel

theorem cells : ∀ k < 256, cellOk P (offc P) Z rows k (cellC 4 k) (cellR 4 k) = true := by
  intro k hk
  by_cases h0 : k < 32
  · exact cellsOk_iff c0 k (by omega) (by omega)
  by_cases h1 : k < 64
  · exact cellsOk_iff c1 k (by omega) (by omega)
  by_cases h2 : k < 96
  · exact cellsOk_iff c2 k (by omega) (by omega)
  by_cases h3 : k < 128
  · exact cellsOk_iff c3 k (by omega) (by omega)
  by_cases h4 : k < 160
  · exact cellsOk_iff c4 k (by omega) (by omega)
  by_cases h5 : k < 192
  · exact cellsOk_iff c5 k (by omega) (by omega)
  by_cases h6 : k < 224
  · exact cellsOk_iff c6 k (by omega) (by omega)
  exact cellsOk_iff c7 k (by omega) (by omega)

theorem certified : Certified 11 P Z rows 4 where
  hn := rfl
  ok := ⟨by decide, rfl, by decide +kernel, by decide +kernel, by decide +kernel⟩
  win := ⟨by decide, by decide, by decide, by decide, by decide, by decide⟩
  M := by decide
  B := by decide
  le := by decide
  half := by decide
  stat := by decide +kernel
  cells := cells
  nodes := by decide +kernel

end Gslib.Lob.Cert11
