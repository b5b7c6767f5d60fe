import Verif.Lemmas.LobCertified

/-! Certificate for `lob_bnd_setup` with n = 9; generated. The data are found numerically, the kernel checks them. -/

namespace Gslib.Lob.Cert9
open Gslib.Lob Gslib.Poly
set_option maxRecDepth 100000
set_option Elab.async false

def P : Par := ⟨9, 256, 9, 5, 15, 994, 825, 1548, 2 ^ 1547⟩
def Z : List ℕ := [0, 100242004588539842687654755581662041948519704433900, 322813720489262246554114572908657549288970352386090, 636882536173821841289247931291340786979357722399120, 1000000000000000000000000000000000000000000000000000, 1363117463826178158710752068708659213020642277600880, 1677186279510737753445885427091342450711029647613910, 1899757995411460157312345244418337958051480295566100, 2000000000000000000000000000000000000000000000000000]
def r0 : Row := ⟨true, 194785625, 224547143, true, 13917544, 18712262, [⟨61, 62, false, 131338832, 237543983, 63599324, 147393514⟩, ⟨94, 95, true, 30130020, 38669620, 18813528, 32091065⟩, ⟨125, 126, false, 15620073, 16448552, 11843839, 16054745⟩, ⟨156, 157, true, 11416529, 13410742, 11750924, 13410900⟩, ⟨187, 188, false, 13755724, 19560964, 18872201, 20585800⟩, ⟨218, 219, true, 31346622, 63768783, 57919682, 94258154⟩]⟩
def r1 : Row := ⟨true, 145612931, 171185549, true, 14643623, 19669928, [⟨53, 55, false, 179532191, 318550500, 99462858, 216444938⟩, ⟨93, 94, true, 36598799, 49415317, 22475611, 39193865⟩, ⟨125, 126, false, 17175001, 18494185, 12659057, 17749112⟩, ⟨156, 157, true, 12514693, 14425918, 12478739, 14425918⟩, ⟨187, 188, false, 14758708, 20776687, 20071962, 21784108⟩, ⟨218, 219, true, 33258988, 67294887, 61161430, 99236032⟩]⟩
def r2 : Row := ⟨true, 80134110, 98722865, true, 16561828, 22191165, [⟨44, 45, false, 222074598, 334918148, 138640870, 240229575⟩, ⟨86, 87, true, 51952494, 64801880, 36028627, 54729884⟩, ⟨124, 125, false, 22644154, 25914260, 16078045, 23619990⟩, ⟨156, 157, true, 15824536, 17411233, 14402401, 17411233⟩, ⟨187, 188, false, 17583686, 24084839, 23352930, 24998379⟩, ⟨218, 219, true, 38453843, 76702578, 69829788, 112405254⟩]⟩
def r3 : Row := ⟨true, 42599636, 55168674, true, 20315869, 27088593, [⟨38, 39, false, 186216957, 274714450, 118165354, 200716156⟩, ⟨76, 77, true, 57624434, 62538703, 45708330, 59311399⟩, ⟨117, 118, false, 32066647, 34056868, 25641845, 32889383⟩, ⟨155, 156, true, 23871500, 24763381, 19250551, 24435799⟩, ⟨186, 187, false, 22149461, 30290326, 29360706, 31540972⟩, ⟨218, 219, true, 49235344, 95492611, 87226244, 138234477⟩]⟩
def r4 : Row := ⟨true, 27523110, 36355252, true, 27523110, 36355252, [⟨37, 38, false, 122164203, 187853637, 72322203, 132882259⟩, ⟨70, 71, true, 43521809, 45172406, 35583879, 44414784⟩, ⟨107, 108, false, 30055730, 33381456, 30474375, 33381456⟩, ⟨148, 149, true, 30474375, 33381456, 30055730, 33381456⟩, ⟨185, 186, false, 35583879, 44414784, 43521809, 45172406⟩, ⟨218, 219, true, 72322203, 132882259, 122164203, 187853637⟩]⟩
def rows : List Row := [r0, r1, r2, r3, r4]

theorem c0 : cellsOk P (offc P) Z rows 4 0 32 = true := by decide +kernel
theorem c1 : cellsOk P (offc P) Z rows 4 32 32 = true := by decide +kernel
theorem c2 : cellsOk P (offc P) Z rows 4 64 32 = true := by decide +kernel
theorem c3 : cellsOk P (offc P) Z rows 4 96 32 = true := by decide +kernel
theorem c4 : cellsOk P (offc P) Z rows 4 128 32 = true := by decide +kernel
theorem c5 : cellsOk P (offc P) Z rows 4 160 32 = true := by decide +kernel
theorem c6 : cellsOk P (offc P) Z rows 4 192 32 = true := by decide +kernel
theorem c7 : cellsOk P (offc P) Z rows 4 224 32 = true := by decide +kernel

theorem cells : ∀ k < 256, cellOk P (offc P) Z rows k (cellC 4 k) (cellR 4 k) = true := by
  intro k hk
  by_cases h0 : k < 32
  · exact cellsOk_iff c0 k (by omega) (by omega)
  by_cases h1 : k < 64
  · exact cellsOk_iff c1 k (by omega) (by omega)
  by_cases h2 : k < 96
  · exact cellsOk_iff c2 k (by omega) (by omega)
  by_cases h3 : k < 128
  · exact cellsOk_iff c3 k (by omega) (by omega)
  by_cases h4 : k < 160
  · exact cellsOk_iff c4 k (by omega) (by omega)
  by_cases h5 : k < 192
  · exact cellsOk_iff c5 k (by omega) (by omega)
  by_cases h6 : k < 224
  · exact cellsOk_iff c6 k (by omega) (by omega)
  exact cellsOk_iff c7 k (by omega) (by omega)

theorem certified : Certified 9 P Z rows 4 where
  hn := rfl
  ok := ⟨by decide, rfl, by decide +kernel, by decide +kernel, by decide +kernel⟩
  win := ⟨by decide, by decide, by decide, by decide, by decide, by decide⟩
  M := by decide
  B := by decide
  le := by decide
  half := by decide
  stat := by decide +kernel
  cells := cells
  nodes := by decide +kernel

end Gslib.Lob.Cert9
