import Verif.Lemmas.LobCertified

/-! Certificate for `lob_bnd_setup` with n = 5; generated. The data are found numerically, the kernel checks them. -/

namespace Gslib.Lob.Cert5
open Gslib.Lob Gslib.Poly
set_option maxRecDepth 100000
set_option Elab.async false

def P : Par := ⟨5, 64, 4, 2, 7, 317, 149, 860, 2 ^ 859⟩
def Z : List ℕ := [0, 345346329292022856201707543753141644430791917604580, 1000000000000000000000000000000000000000000000000000, 1654653670707977143798292456246858355569208082395420, 2000000000000000000000000000000000000000000000000000]
def r0 : Row := ⟨true, 57785976, 64205848, true, 15469132, 19261755, [⟨29, 30, false, 11704221, 16579497, 8407790, 13342508⟩, ⟨45, 46, true, 8882082, 12927594, 11626269, 15373033⟩]⟩
def r1 : Row := ⟨true, 46198602, 52164819, true, 18495725, 22742004, [⟨26, 27, false, 13675897, 18374281, 10438907, 15266803⟩, ⟨45, 46, true, 11785682, 15831193, 14529869, 18276633⟩]⟩
def r2 : Row := ⟨true, 29136871, 34243119, true, 29136871, 34243119, [⟨21, 22, false, 15853620, 20034061, 12870088, 17289874⟩, ⟨42, 43, true, 12870088, 17289874, 15853620, 20034061⟩]⟩
def rows : List Row := [r0, r1, r2]

theorem c0 : cellsOk P (offc P) Z rows 16 0 32 = true := by decide +kernel
theorem c1 : cellsOk P (offc P) Z rows 16 32 32 = true := by decide +kernel

theorem cells : ∀ k < 64, cellOk P (offc P) Z rows k (cellC 16 k) (cellR 16 k) = true := by
  intro k hk
  by_cases h0 : k < 32
  · exact cellsOk_iff c0 k (by omega) (by omega)
  exact cellsOk_iff c1 k (by omega) (by omega)

theorem certified : Certified 5 P Z rows 16 where
  hn := rfl
  ok := ⟨by decide, rfl, by decide +kernel, by decide +kernel, by decide +kernel⟩
  win := ⟨by decide, by decide, by decide, by decide, by decide, by decide⟩
  M := by decide
  B := by decide
  le := by decide
  half := by decide
  stat := by decide +kernel
  cells := cells
  nodes := by decide +kernel

end Gslib.Lob.Cert5
