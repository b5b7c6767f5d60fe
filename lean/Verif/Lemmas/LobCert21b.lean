import Verif.Lemmas.LobCert21a

/-! Certificate for `lob_bnd_setup` with n = 21, part 2; generated. The data are found numerically, the kernel checks them. -/

namespace Gslib.Lob.Cert21
open Gslib.Lob Gslib.Poly
set_option maxRecDepth 100000
set_option Elab.async false

theorem c8 : cellsOk P (offc P) Z rows 1 256 32 = true := by decide +kernel
theorem c9 : cellsOk P (offc P) Z rows 1 288 32 = true := by decide +kernel
theorem c10 : cellsOk P (offc P) Z rows 1 320 32 = true := by decide +kernel
theorem c11 : cellsOk P (offc P) Z rows 1 352 32 = true := by decide +kernel
theorem c12 : cellsOk P (offc P) Z rows 1 384 32 = true := by decide +kernel
theorem c13 : cellsOk P (offc P) Z rows 1 416 32 = true := by decide +kernel
theorem c14 : cellsOk P (offc P) Z rows 1 448 32 = true := by decide +kernel
theorem c15 : cellsOk P (offc P) Z rows 1 480 32 = true := by decide +kernel

end Gslib.Lob.Cert21
