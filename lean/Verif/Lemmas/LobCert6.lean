import Verif.Lemmas.LobCertified

/-! Certificate for `lob_bnd_setup` with n = 6; generated. The data are found numerically, the kernel checks them. -/

namespace Gslib.Lob.Cert6
open Gslib.Lob Gslib.Poly
set_option maxRecDepth 100000
set_option Elab.async false

def P : Par := ⟨6, 64, 4, 2, 6, 487, 318, 1032, 2 ^ 1031⟩
def Z : List ℕ := [0, 234944676070535307148997026040661849634264311463900, 714768483519354903685849005959120928080996527273570, 1285231516480645096314150994040879071919003472726430, 1765055323929464692851002973959338150365735688536100, 2000000000000000000000000000000000000000000000000000]
def r0 : Row := ⟨false, 58430326, 66736104, true, 10107768, 13347221, [⟨23, 25, true, 20285013, 45312193, 9937803, 32265222⟩, ⟨36, 37, false, 10816488, 12113771, 9879591, 12111229⟩, ⟨49, 50, true, 12929219, 24907378, 20836930, 32818987⟩]⟩
def r1 : Row := ⟨false, 45207096, 52649595, true, 11413580, 14980061, [⟨21, 22, true, 28924345, 48204690, 17349967, 35224118⟩, ⟨36, 37, false, 13871280, 14909657, 10981715, 14710668⟩, ⟨49, 50, true, 15360992, 28410415, 24001440, 36939316⟩]⟩
def r2 : Row := ⟨false, 26649079, 32550267, true, 15488951, 19945064, [⟨17, 18, true, 35462329, 53372757, 23899988, 41469957⟩, ⟨33, 34, false, 16913031, 18306337, 16037074, 18305686⟩, ⟨48, 49, true, 19197155, 34375553, 29238453, 44379071⟩]⟩
def rows : List Row := [r0, r1, r2]

theorem c0 : cellsOk P (offc P) Z rows 16 0 32 = true := by decide +kernel
theorem c1 : cellsOk P (offc P) Z rows 16 32 32 = true := by decide +kernel

theorem cells : ∀ k < 64, cellOk P (offc P) Z rows k (cellC 16 k) (cellR 16 k) = true := by
  intro k hk
  by_cases h0 : k < 32
  · exact cellsOk_iff c0 k (by omega) (by omega)
  exact cellsOk_iff c1 k (by omega) (by omega)

theorem certified : Certified 6 P Z rows 16 where
  hn := rfl
  ok := ⟨by decide, rfl, by decide +kernel, by decide +kernel, by decide +kernel⟩
  win := ⟨by decide, by decide, by decide, by decide, by decide, by decide⟩
  M := by decide
  B := by decide
  le := by decide
  half := by decide
  stat := by decide +kernel
  cells := cells
  nodes := by decide +kernel

end Gslib.Lob.Cert6
