import Verif.Lemmas.LobCert20a
import Verif.Lemmas.LobCert20b
import Verif.Lemmas.LobCert20c
import Verif.Lemmas.LobCert20d

/-! Certificate for `lob_bnd_setup` with n = 20; generated. The data are found numerically, the kernel checks them. -/

namespace Gslib.Lob.Cert20
open Gslib.Lob Gslib.Poly
set_option maxRecDepth 100000
set_option Elab.async false


theorem cells : ∀ k < 1024, cellOk P (offc P) Z rows k (cellC 1 k) (cellR 1 k) = true := by
  intro k hk
  by_cases h0 : k < 32
  · exact cellsOk_iff c0 k (by omega) (by omega)
  by_cases h1 : k < 64
  · exact cellsOk_iff c1 k (by omega) (by omega)
  by_cases h2 : k < 96
  · exact cellsOk_iff c2 k (by omega) (by omega)
  by_cases h3 : k < 128
  · exact cellsOk_iff c3 k (by omega) (by omega)
  by_cases h4 : k < 160
  · exact cellsOk_iff c4 k (by omega) (by omega)
  by_cases h5 : k < 192
  · exact cellsOk_iff c5 k (by omega) (by omega)
  by_cases h6 : k < 224
  · exact cellsOk_iff c6 k (by omega) (by omega)
  by_cases h7 : k < 256
  · exact cellsOk_iff c7 k (by omega) (by omega)
  by_cases h8 : k < 288
  · exact cellsOk_iff c8 k (by omega) (by omega)
  by_cases h9 : k < 320
  · exact cellsOk_iff c9 k (by omega) (by omega)
  by_cases h10 : k < 352
  · exact cellsOk_iff c10 k (by omega) (by omega)
  by_cases h11 : k < 384
  · exact cellsOk_iff c11 k (by omega) (by omega)
  by_cases h12 : k < 416
  · exact cellsOk_iff c12 k (by omega) (by omega)
  by_cases h13 : k < 448
  · exact cellsOk_iff c13 k (by omega) (by omega)
  by_cases h14 : k < 480
  · exact cellsOk_iff c14 k (by omega) (by omega)
  by_cases h15 : k < 512
  · exact cellsOk_iff c15 k (by omega) (by omega)
  by_cases h16 : k < 544
  · exact cellsOk_iff c16 k (by omega) (by omega)
  by_cases h17 : k < 576
  · exact cellsOk_iff c17 k (by omega) (by omega)
  by_cases h18 : k < 608
  · exact cellsOk_iff c18 k (by omega) (by omega)
  by_cases h19 : k < 640
  · exact cellsOk_iff c19 k (by omega) (by omega)
  by_cases h20 : k < 672
  · exact cellsOk_iff c20 k (by omega) (by omega)
  by_cases h21 : k < 704
  · exact cellsOk_iff c21 k (by omega) (by omega)
  by_cases h22 : k < 736
  · exact cellsOk_iff c22 k (by omega) (by omega)
  by_cases h23 : k < 768
  · exact cellsOk_iff c23 k (by omega) (by omega)
  by_cases h24 : k < 800
  · exact cellsOk_iff c24 k (by omega) (by omega)
  by_cases h25 : k < 832
  · exact cellsOk_iff c25 k (by omega) (by omega)
  by_cases h26 : k < 864
  · exact cellsOk_iff c26 k (by omega) (by omega)
  by_cases h27 : k < 896
  · exact cellsOk_iff c27 k (by omega) (by omega)
  by_cases h28 : k < 928
  · exact cellsOk_iff c28 k (by omega) (by omega)
  by_cases h29 : k < 960
  · exact cellsOk_iff c29 k (by omega) (by omega)
  by_cases h30 : k < 992
  · exact cellsOk_iff c30 k (by omega) (by omega)
  exact cellsOk_iff c31 k (by omega) (by omega)

theorem certified : Certified 20 P Z rows 1 where
  hn := rfl
  ok := ⟨by decide, rfl, by decide +kernel, by decide +kernel, by decide +kernel⟩
  win := ⟨by decide, by decide, by decide, by decide, by decide, by decide⟩
  M := by decide
  B := by decide
  le := by decide
  half := by decide
  stat := by decide +kernel
  cells := cells
  nodes := by decide +kernel

end Gslib.Lob.Cert20
