import Verif.Lemmas.LobCert20a

/-! Certificate for `lob_bnd_setup` with n = 20, part 4; generated. The data are found numerically, the kernel checks them. -/

namespace Gslib.Lob.Cert20
open Gslib.Lob Gslib.Poly
set_option maxRecDepth 100000
set_option Elab.async false

theorem c24 : cellsOk P (offc P) Z rows 1 768 32 = true := by decide +kernel
theorem c25 : cellsOk P (offc P) Z rows 1 800 32 = true := by decide +kernel
theorem c26 : cellsOk P (offc P) Z rows 1 832 32 = true := by decide +kernel
theorem c27 : cellsOk P (offc P) Z rows 1 864 32 = true := by decide +kernel
theorem c28 : cellsOk P (offc P) Z rows 1 896 32 = true := by decide +kernel
theorem c29 : cellsOk P (offc P) Z rows 1 928 32 = true := by decide +kernel
theorem c30 : cellsOk P (offc P) Z rows 1 960 32 = true := by decide +kernel
theorem c31 : cellsOk P (offc P) Z rows 1 992 32 = true := by decide +kernel

end Gslib.Lob.Cert20
