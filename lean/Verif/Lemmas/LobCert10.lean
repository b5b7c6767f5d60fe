import Verif.Lemmas.LobCertified

/-! Certificate for `lob_bnd_setup` with n = 10; generated. The data are found numerically, the kernel checks them. -/

namespace Gslib.Lob.Cert10
open Gslib.Lob Gslib.Poly
set_option maxRecDepth 100000
set_option Elab.async false

def P : Par := ⟨10, 256, 8, 4, 14, 1163, 994, 1720, 2 ^ 1719⟩
def Z : List ℕ := [0, 80466091833541186171067339177661865846456924553720, 261226134894494924996893825140169274983814898623070, 522075050189555504338824907268742002113227106669430, 834721042333612975373780234041826466768849656450520, 1165278957666387024626219765958173533231150343549480, 1477924949810444495661175092731257997886772893330570, 1738773865105505075003106174859830725016185101376930, 1919533908166458813828932660822338134153543075446280, 2000000000000000000000000000000000000000000000000000]
def r0 : Row := ⟨false, 236877249, 277385650, true, 13294659, 18492377, [⟨54, 56, true, 175851661, 353246814, 87953143, 229317659⟩, ⟨84, 85, false, 39762465, 52484664, 25522285, 42971572⟩, ⟨112, 113, true, 17922070, 19880723, 13242922, 18744052⟩, ⟨139, 140, false, 11870888, 12991677, 10966517, 12991246⟩, ⟨167, 168, true, 11168913, 13395575, 12370524, 13396416⟩, ⟨195, 196, false, 16513968, 22557254, 21667049, 23682419⟩, ⟨222, 223, true, 39372838, 77027535, 68874446, 111132200⟩]⟩
def r1 : Row := ⟨false, 175846920, 210436135, true, 13847882, 19249214, [⟨48, 49, true, 267432695, 434677984, 157640177, 298739469⟩, ⟨83, 84, false, 48746754, 66956697, 31001066, 52936996⟩, ⟨111, 112, true, 20532315, 22376502, 15640621, 21363773⟩, ⟨139, 140, false, 12941984, 13957009, 11599877, 13954556⟩, ⟨167, 168, true, 11903453, 14140133, 12974422, 14140945⟩, ⟨194, 195, false, 15689739, 22759516, 21641597, 24735784⟩, ⟨222, 223, true, 41213197, 80380517, 71905314, 115812477⟩]⟩
def r2 : Row := ⟨false, 95344174, 120163319, true, 15275751, 21197967, [⟨39, 40, true, 333864043, 495580070, 219059136, 365128760⟩, ⟨76, 77, false, 73357428, 90835432, 53486711, 77745729⟩, ⟨111, 112, true, 25747485, 31327613, 18014904, 27337368⟩, ⟨139, 140, false, 16143186, 16842378, 13264423, 16681284⟩, ⟨167, 168, true, 13947322, 16142973, 14555669, 16143676⟩, ⟨194, 195, false, 17859112, 25514324, 24320487, 27487109⟩, ⟨222, 223, true, 46041821, 89087905, 79788621, 127908626⟩]⟩
def r3 : Row := ⟨false, 49775580, 66284019, true, 17945618, 24823876, [⟨34, 35, true, 269568765, 394656832, 177812354, 294111608⟩, ⟨68, 69, false, 77940549, 87398607, 61910725, 81025077⟩, ⟨104, 105, true, 38428847, 41827595, 30932491, 39758529⟩, ⟨138, 139, false, 22587262, 24268703, 17783013, 23367879⟩, ⟨166, 167, true, 17452052, 20286827, 18536321, 20287564⟩, ⟨194, 195, false, 22263316, 30881254, 29576573, 32776150⟩, ⟨222, 223, true, 55379239, 105573233, 94762458, 150583636⟩]⟩
def r4 : Row := ⟨false, 31520861, 42902141, true, 22699311, 31222254, [⟨33, 34, true, 175443228, 266506701, 109386025, 193253617⟩, ⟨62, 63, false, 59708571, 62180043, 50033378, 61136720⟩, ⟨95, 96, true, 37640430, 40478852, 36667113, 40477428⟩, ⟨132, 133, false, 31704869, 32688314, 27593870, 32470502⟩, ⟨165, 166, true, 27270389, 29454467, 25883500, 29454467⟩, ⟨194, 195, false, 31351338, 41118727, 39741123, 42574857⟩, ⟨222, 223, true, 73026912, 135566665, 122166895, 191102418⟩]⟩
def rows : List Row := [r0, r1, r2, r3, r4]

theorem c0 : cellsOk P (offc P) Z rows 4 0 32 = true := by decide +kernel
theorem c1 : cellsOk P (offc P) Z rows 4 32 32 = true := by decide +kernel
theorem c2 : cellsOk P (offc P) Z rows 4 64 32 = true := by decide +kernel
theorem c3 : cellsOk P (offc P) Z rows 4 96 32 = true := by decide +kernel
theorem c4 : cellsOk P (offc P) Z rows 4 128 32 = true := by decide +kernel
theorem c5 : cellsOk P (offc P) Z rows 4 160 32 = true := by decide +kernel
theorem c6 : cellsOk P (offc P) Z rows 4 192 32 = true := by decide +kernel
theorem c7 : cellsOk P (offc P) Z rows 4 224 32 = true := by decide +kernel

theorem cells : ∀ k < 256, cellOk P (offc P) Z rows k (cellC 4 k) (cellR 4 k) = true := by
  intro k hk
  by_cases h0 : k < 32
  · exact cellsOk_iff c0 k (by omega) (by omega)
  by_cases h1 : k < 64
  · exact cellsOk_iff c1 k (by omega) (by omega)
  by_cases h2 : k < 96
  · exact cellsOk_iff c2 k (by omega) (by omega)
  by_cases h3 : k < 128
  · exact cellsOk_iff c3 k (by omega) (by omega)
  by_cases h4 : k < 160
  · exact cellsOk_iff c4 k (by omega) (by omega)
  by_cases h5 : k < 192
  · exact cellsOk_iff c5 k (by omega) (by omega)
  by_cases h6 : k < 224
  · exact cellsOk_iff c6 k (by omega) (by omega)
  exact cellsOk_iff c7 k (by omega) (by omega)

theorem certified : Certified 10 P Z rows 4 where
  hn := rfl
  ok := ⟨by decide, rfl, by decide +kernel, by decide +kernel, by decide +kernel⟩
  win := ⟨by decide, by decide, by decide, by decide, by decide, by decide⟩
  M := by decide
  B := by decide
  le := by decide
  half := by decide
  stat := by decide +kernel
  cells := cells
  nodes := by decide +kernel

end Gslib.Lob.Cert10
