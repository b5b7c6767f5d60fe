import Verif.Lemmas.LobCert20a

/-! Certificate for `lob_bnd_setup` with n = 20, part 3; generated. The data are found numerically, the kernel checks them. -/

namespace Gslib.Lob.Cert20
open Gslib.Lob Gslib.Poly
set_option maxRecDepth 100000
set_option Elab.async false

theorem c16 : cellsOk P (offc P) Z rows 1 512 32 = true := by decide +kernel
theorem c17 : cellsOk P (offc P) Z rows 1 544 32 = true := by decide +kernel
theorem c18 : cellsOk P (offc P) Z rows 1 576 32 = true := by decide +kernel
theorem c19 : cellsOk P (offc P) Z rows 1 608 32 = true := by decide +kernel
theorem c20 : cellsOk P (offc P) Z rows 1 640 32 = true := by decide +kernel
theorem c21 : cellsOk P (offc P) Z rows 1 672 32 = true := by decide +kernel
theorem c22 : cellsOk P (offc P) Z rows 1 704 32 = true := by decide +kernel
theorem c23 : cellsOk P (offc P) Z rows 1 736 32 = true := by decide +kernel

end Gslib.Lob.Cert20
