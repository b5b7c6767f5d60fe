import Verif.Lemmas.LobCertified

/-! Certificate for `lob_bnd_setup` with n = 4; generated. The data are found numerically, the kernel checks them. -/

namespace Gslib.Lob.Cert4
open Gslib.Lob Gslib.Poly
set_option maxRecDepth 100000
set_option Elab.async false

def P : Par := ⟨4, 64, 5, 3, 9, 148, 0, 688, 2 ^ 687⟩
def Z : List ℕ := [0, 552786404500042060718165266253744752911876328077690, 1447213595499957939281834733746255247088123671922310, 2000000000000000000000000000000000000000000000000000]
def r0 : Row := ⟨false, 20806299, 22420776, true, 9595911, 11210388, [⟨38, 39, true, 6, 6, 6, 6⟩]⟩
def r1 : Row := ⟨false, 17707824, 19322301, true, 12694386, 14308863, [⟨35, 36, true, 6, 6, 6, 6⟩]⟩
def rows : List Row := [r0, r1]

theorem c0 : cellsOk P (offc P) Z rows 16 0 32 = true := by decide +kernel
theorem c1 : cellsOk P (offc P) Z rows 16 32 32 = true := by decide +kernel

theorem cells : ∀ k < 64, cellOk P (offc P) Z rows k (cellC 16 k) (cellR 16 k) = true := by
  intro k hk
  by_cases h0 : k < 32
  · exact cellsOk_iff c0 k (by omega) (by omega)
  exact cellsOk_iff c1 k (by omega) (by omega)

theorem certified : Certified 4 P Z rows 16 where
  hn := rfl
  ok := ⟨by decide, rfl, by decide +kernel, by decide +kernel, by decide +kernel⟩
  win := ⟨by decide, by decide, by decide, by decide, by decide, by decide⟩
  M := by decide
  B := by decide
  le := by decide
  half := by decide
  stat := by decide +kernel
  cells := cells
  nodes := by decide +kernel

end Gslib.Lob.Cert4
