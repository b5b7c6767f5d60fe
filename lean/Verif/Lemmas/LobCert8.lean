import Verif.Lemmas.LobCertified

/-! Certificate for `lob_bnd_setup` with n = 8; generated. The data are found numerically, the kernel checks them. -/

namespace Gslib.Lob.Cert8
open Gslib.Lob Gslib.Poly
set_option maxRecDepth 100000
set_option Elab.async false

def P : Par := ⟨8, 128, 5, 3, 9, 825, 656, 1376, 2 ^ 1375⟩
def Z : List ℕ := [0, 128259851490393384662554238779336561896219330323020, 408299818566857697855489268602046810054299010482670, 790700782097521131231342739654648744704454594913320, 1209299217902478868768657260345351255295545405086680, 1591700181433142302144510731397953189945700989517330, 1871740148509606615337445761220663438103780669676980, 2000000000000000000000000000000000000000000000000000]
def r0 : Row := ⟨false, 143812685, 168026121, true, 12994950, 18002799, [⟨34, 35, true, 86304898, 163488445, 41868707, 104096489⟩, ⟨53, 54, false, 21649739, 26940292, 13677768, 23791223⟩, ⟨71, 72, true, 12854605, 14070777, 10484226, 14066376⟩, ⟨89, 90, false, 12735711, 17177358, 15975065, 17302251⟩, ⟨106, 107, true, 21589465, 49779041, 42154104, 73371038⟩]⟩
def r1 : Row := ⟨false, 108017166, 128994223, true, 13874893, 19187609, [⟨30, 31, true, 116615952, 200171455, 64988818, 136388090⟩, ⟨53, 54, false, 24530113, 34108837, 14286539, 27584269⟩, ⟨71, 72, true, 14820245, 15823667, 11243450, 15660176⟩, ⟨88, 89, false, 12106830, 18051891, 17016210, 18634276⟩, ⟨106, 107, true, 23431359, 53393294, 45305350, 78374503⟩]⟩
def r2 : Row := ⟨false, 59943969, 75451844, true, 16281326, 22405929, [⟨25, 26, true, 129540299, 207020721, 78057846, 148407779⟩, ⟨48, 49, false, 38059602, 44793459, 27771806, 40751259⟩, ⟨70, 71, true, 20275510, 21697098, 15282291, 21257803⟩, ⟨88, 89, false, 15893383, 22133954, 21136235, 22513910⟩, ⟨106, 107, true, 28743851, 63423735, 54112594, 92051620⟩]⟩
def r3 : Row := ⟨false, 32243763, 42956930, true, 21328633, 29052910, [⟨22, 23, true, 103683297, 165071477, 61559151, 118848094⟩, ⟨43, 44, false, 39701971, 42346233, 31750334, 41373461⟩, ⟨66, 67, true, 26489719, 28456142, 23758035, 28454969⟩, ⟨88, 89, false, 26382950, 31353291, 27992692, 31362984⟩, ⟨106, 107, true, 41260170, 85105805, 73455386, 120617560⟩]⟩
def rows : List Row := [r0, r1, r2, r3]

theorem c0 : cellsOk P (offc P) Z rows 8 0 32 = true := by decide +kernel
theorem c1 : cellsOk P (offc P) Z rows 8 32 32 = true := by decide +kernel
theorem c2 : cellsOk P (offc P) Z rows 8 64 32 = true := by decide +kernel
theorem c3 : cellsOk P (offc P) Z rows 8 96 32 = true := by decide +kernel

theorem cells : ∀ k < 128, cellOk P (offc P) Z rows k (cellC 8 k) (cellR 8 k) = true := by
  intro k hk
  by_cases h0 : k < 32
  · exact cellsOk_iff c0 k (by omega) (by omega)
  by_cases h1 : k < 64
  · exact cellsOk_iff c1 k (by omega) (by omega)
  by_cases h2 : k < 96
  · exact cellsOk_iff c2 k (by omega) (by omega)
  exact cellsOk_iff c3 k (by omega) (by omega)

theorem certified : Certified 8 P Z rows 8 where
  hn := rfl
  ok := ⟨by decide, rfl, by decide +kernel, by decide +kernel, by decide +kernel⟩
  win := ⟨by decide, by decide, by decide, by decide, by decide, by decide⟩
  M := by decide
  B := by decide
  le := by decide
  half := by decide
  stat := by decide +kernel
  cells := cells
  nodes := by decide +kernel

end Gslib.Lob.Cert8
