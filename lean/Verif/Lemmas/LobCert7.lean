import Verif.Lemmas.LobCertified

/-! Certificate for `lob_bnd_setup` with n = 7; generated. The data are found numerically, the kernel checks them. -/

namespace Gslib.Lob.Cert7
open Gslib.Lob Gslib.Poly
set_option maxRecDepth 100000
set_option Elab.async false

def P : Par := ⟨7, 64, 3, 2, 5, 656, 487, 1204, 2 ^ 1203⟩
def Z : List ℕ := [0, 169776103721433070127967786032534860412829635128000, 531151206529285786196228118091233670594402528328160, 1000000000000000000000000000000000000000000000000000, 1468848793470714213803771881908766329405597471671840, 1830223896278566929872032213967465139587170364872000, 2000000000000000000000000000000000000000000000000000]
def r0 : Row := ⟨true, 98833763, 113508120, true, 12140902, 16215446, [⟨20, 21, false, 38227323, 88815396, 13391511, 53858993⟩, ⟨30, 31, true, 15923967, 17836471, 10636447, 17545194⟩, ⟨41, 42, false, 10296602, 14248766, 11533803, 14265470⟩, ⟨51, 52, true, 12646249, 37069677, 28304223, 54704288⟩]⟩
def r1 : Row := ⟨true, 75176369, 88058817, true, 13244939, 17637445, [⟨17, 18, false, 64667385, 121112144, 33547667, 82768221⟩, ⟨30, 31, true, 18457201, 22859765, 11338170, 21144979⟩, ⟨41, 42, false, 12134599, 15849986, 12477767, 15865437⟩, ⟨51, 52, true, 14356635, 40732298, 31306363, 59629020⟩]⟩
def r2 : Row := ⟨true, 42826337, 52615266, true, 16420753, 21679920, [⟨14, 15, false, 73356666, 125044322, 42237819, 90460791⟩, ⟨28, 29, true, 24307201, 28428826, 16657284, 27048328⟩, ⟨40, 41, false, 16139063, 21188811, 18070326, 21206974⟩, ⟨51, 52, true, 19913131, 51487760, 40330142, 73652577⟩]⟩
def r3 : Row := ⟨true, 23806658, 30809347, true, 23806658, 30809347, [⟨12, 13, false, 63223184, 104872615, 36852203, 77288240⟩, ⟨25, 26, true, 25553528, 27486751, 20131863, 27461301⟩, ⟨38, 39, false, 20131863, 27461301, 25553528, 27486751⟩, ⟨51, 52, true, 36852203, 77288240, 63223184, 104872615⟩]⟩
def rows : List Row := [r0, r1, r2, r3]

theorem c0 : cellsOk P (offc P) Z rows 16 0 32 = true := by decide +kernel
theorem c1 : cellsOk P (offc P) Z rows 16 32 32 = true := by decide +kernel

theorem cells : ∀ k < 64, cellOk P (offc P) Z rows k (cellC 16 k) (cellR 16 k) = true := by
  intro k hk
  by_cases h0 : k < 32
  · exact cellsOk_iff c0 k (by omega) (by omega)
  exact cellsOk_iff c1 k (by omega) (by omega)

theorem certified : Certified 7 P Z rows 16 where
  hn := rfl
  ok := ⟨by decide, rfl, by decide +kernel, by decide +kernel, by decide +kernel⟩
  win := ⟨by decide, by decide, by decide, by decide, by decide, by decide⟩
  M := by decide
  B := by decide
  le := by decide
  half := by decide
  stat := by decide +kernel
  cells := cells
  nodes := by decide +kernel

end Gslib.Lob.Cert7
