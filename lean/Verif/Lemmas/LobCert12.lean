import Verif.Lemmas.LobCertified

/-! Certificate for `lob_bnd_setup` with n = 12; generated. The data are found numerically, the kernel checks them. -/

namespace Gslib.Lob.Cert12
open Gslib.Lob Gslib.Poly
set_option maxRecDepth 100000
set_option Elab.async false

def P : Par := ⟨12, 512, 13, 7, 22, 1501, 1331, 2064, 2 ^ 2063⟩
def Z : List ℕ := [0, 55100727777117776592419861696781286388743448049970, 180720678355993321651358418283097339309533342096360, 367123846968139322337595145556344141756156254598500, 600469059034651067735650208433033099472251967204690, 863447067145072445135938144260306103101585888717940, 1136552932854927554864061855739693896898414111282060, 1399530940965348932264349791566966900527748032795310, 1632876153031860677662404854443655858243843745401500, 1819279321644006678348641581716902660690466657903640, 1944899272222882223407580138303218713611256551950030, 2000000000000000000000000000000000000000000000000000]
def r0 : Row := ⟨false, 306901351, 355090123, true, 11917001, 16140461, [⟨90, 91, true, 689090909, 1219252797, 339164629, 748362514⟩, ⟨138, 139, false, 132163604, 172982455, 82634043, 138608189⟩, ⟨185, 186, true, 48420627, 55652936, 33420657, 50054187⟩, ⟨230, 231, false, 27526423, 28713361, 21316524, 28025836⟩, ⟨276, 277, true, 19400271, 20791970, 16683510, 20680083⟩, ⟨321, 322, false, 17434315, 20164640, 17825277, 20164747⟩, ⟨366, 367, true, 20588557, 26334502, 25525115, 26733899⟩, ⟨411, 412, false, 33821400, 49916706, 48325255, 55457689⟩, ⟨457, 458, true, 101347572, 195635404, 182787936, 290498879⟩]⟩
def r1 : Row := ⟨false, 226865818, 267715289, true, 12252619, 16590500, [⟨79, 80, true, 997696567, 1606363030, 566449987, 1067874889⟩, ⟨137, 138, false, 157269281, 218684980, 94751187, 165905124⟩, ⟨184, 185, true, 54542154, 62728353, 38022349, 56354541⟩, ⟨230, 231, false, 29290444, 30840728, 22363870, 29879467⟩, ⟨276, 277, true, 20538934, 21873034, 17355532, 21706821⟩, ⟨321, 322, false, 18238156, 20969384, 18451727, 20969477⟩, ⟨366, 367, true, 21378173, 27241509, 26332454, 27622482⟩, ⟨411, 412, false, 34954765, 51466818, 49837818, 57092702⟩, ⟨457, 458, true, 104425549, 201316084, 188117901, 298743575⟩]⟩
def r2 : Row := ⟨false, 122080687, 150959200, true, 13093278, 17716679, [⟨65, 66, true, 1183335000, 1764639709, 739483470, 1252653691⟩, ⟨126, 127, false, 233577222, 297301208, 160421666, 243148798⟩, ⟨183, 184, true, 70195185, 87871175, 46213466, 73152001⟩, ⟨229, 230, false, 35013520, 37167984, 26632388, 35761570⟩, ⟨275, 276, true, 23130076, 24793036, 20064866, 24673808⟩, ⟨321, 322, false, 20370023, 23078711, 20049396, 23078711⟩, ⟨366, 367, true, 23421724, 29559246, 28374486, 29907935⟩, ⟨411, 412, false, 37843031, 55385898, 53665136, 61203912⟩, ⟨457, 458, true, 112191013, 215585822, 201512108, 319408244⟩]⟩
def r3 : Row := ⟨false, 63062934, 81912508, true, 14577322, 19700981, [⟨57, 58, true, 935092387, 1378444749, 585558588, 988788140⟩, ⟨112, 113, false, 255809938, 289765350, 196778155, 262485098⟩, ⟨172, 173, true, 104703186, 119269801, 78879938, 107590986⟩, ⟨228, 229, false, 47406988, 54361515, 33911170, 48876931⟩, ⟨275, 276, true, 29915812, 31020539, 23521195, 30405049⟩, ⟨320, 321, false, 23784253, 27136512, 23874261, 27136561⟩, ⟨366, 367, true, 27272084, 33814656, 32045361, 34088057⟩, ⟨411, 412, false, 43118679, 62432050, 60557723, 68514896⟩, ⟨457, 458, true, 126095373, 240918291, 225309439, 355933040⟩]⟩
def r4 : Row := ⟨false, 39127477, 51831832, true, 16987450, 22913278, [⟨55, 56, true, 608334895, 924058873, 361525763, 646479195⟩, ⟨103, 104, false, 190689206, 202332105, 152509783, 194301857⟩, ⟨157, 158, true, 109550628, 113876565, 97206442, 113080109⟩, ⟨217, 218, false, 69829468, 73321017, 56985616, 70980426⟩, ⟨273, 274, true, 42677264, 45770566, 32697687, 43607256⟩, ⟨320, 321, false, 32153661, 34873800, 29151924, 34813136⟩, ⟨365, 366, true, 32742169, 40888623, 39146495, 41310811⟩, ⟨411, 412, false, 52190267, 74225920, 72127400, 80598638⟩, ⟨457, 458, true, 149215292, 282441993, 264369476, 415364488⟩]⟩
def r5 : Row := ⟨false, 27387018, 36629007, true, 20876899, 28070517, [⟨55, 56, true, 411121554, 642770605, 233258774, 438911824⟩, ⟨101, 102, false, 124577611, 135327729, 94270060, 127593634⟩, ⟨148, 149, true, 72571235, 80897749, 73056631, 80896825⟩, ⟨203, 204, false, 65292491, 71697647, 65770793, 71697647⟩, ⟨263, 264, true, 60675354, 62576996, 52187689, 61945267⟩, ⟨318, 319, false, 49941047, 51725873, 41476963, 51088345⟩, ⟨365, 366, true, 46070822, 54250502, 49856323, 54320730⟩, ⟨410, 411, false, 64068516, 91868279, 89185164, 100562575⟩, ⟨456, 457, true, 169827277, 328663063, 307077351, 487783667⟩]⟩
def rows : List Row := [r0, r1, r2, r3, r4, r5]

theorem c0 : cellsOk P (offc P) Z rows 2 0 32 = true := by decide +kernel
theorem c1 : cellsOk P (offc P) Z rows 2 32 32 = true := by decide +kernel
theorem c2 : cellsOk P (offc P) Z rows 2 64 32 = true := by decide +kernel
theorem c3 : cellsOk P (offc P) Z rows 2 96 32 = true := by decide +kernel
theorem c4 : cellsOk P (offc P) Z rows 2 128 32 = true := by decide +kernel
theorem c5 : cellsOk P (offc P) Z rows 2 160 32 = true := by decide +kernel
theorem c6 : cellsOk P (offc P) Z rows 2 192 32 = true := by decide +kernel
theorem c7 : cellsOk P (offc P) Z rows 2 224 32 = true := by decide +kernel
theorem c8 : cellsOk P (offc P) Z rows 2 256 32 = true := by decide +kernel
theorem c9 : cellsOk P (offc P) Z rows 2 288 32 = true := by decide +kernel
theorem c10 : cellsOk P (offc P) Z rows 2 320 32 = true := by decide +kernel
theorem c11 : cellsOk P (offc P) Z rows 2 352 32 = true := by decide +kernel
theorem c12 : cellsOk P (offc P) Z rows 2 384 32 = true := by decide +kernel
theorem c13 : cellsOk P (offc P) Z rows 2 416 32 = true := by decide +kernel
theorem c14 : cellsOk P (offc P) Z rows 2 448 32 = true := by decide +kernel
theorem c15 : cellsOk P (offc P) Z rows 2 480 32 = true := by decide +kernel

theorem cells : ∀ k < 512, cellOk P (offc P) Z rows k (cellC 2 k) (cellR 2 k) = true := by
  intro k hk
  by_cases h0 : k < 32
  · exact cellsOk_iff c0 k (by omega) (by omega)
  by_cases h1 : k < 64
  · exact cellsOk_iff c1 k (by omega) (by omega)
  by_cases h2 : k < 96
  · exact cellsOk_iff c2 k (by omega) (by omega)
  by_cases h3 : k < 128
  · exact cellsOk_iff c3 k (by omega) (by omega)
  by_cases h4 : k < 160
  · exact cellsOk_iff c4 k (by omega) (by omega)
  by_cases h5 : k < 192
  · exact cellsOk_iff c5 k (by omega) (by omega)
  by_cases h6 : k < 224
  · exact cellsOk_iff c6 k (by omega) (by omega)
  by_cases h7 : k < 256
  · exact cellsOk_iff c7 k (by omega) (by omega)
  by_cases h8 : k < 288
  · exact cellsOk_iff c8 k (by omega) (by omega)
  by_cases h9 : k < 320
  · exact cellsOk_iff c9 k (by omega) (by omega)
  by_cases h10 : k < 352
  · exact cellsOk_iff c10 k (by omega) (by omega)
  by_cases h11 : k < 384
  · exact cellsOk_iff c11 k (by omega) (by omega)
  by_cases h12 : k < 416
  · exact cellsOk_iff c12 k (by omega) (by omega)
  by_cases h13 : k < 448
  · exact cellsOk_iff c13 k (by omega) (by omega)
  by_cases h14 : k < 480
  · exact cellsOk_iff c14 k (by omega) (by omega)
  exact cellsOk_iff c15 k (by omega) (by omega)

theorem certified : Certified 12 P Z rows 2 where
  hn := rfl
  ok := ⟨by decide, rfl, by decide +kernel, by decide +kernel, by decide +kernel⟩
  win := ⟨by decide, by decide, by decide, by decide, by decide, by decide⟩
  M := by decide
  B := by decide
  le := by decide
  half := by decide
  stat := by decide +kernel
  cells := cells
  nodes := by decide +kernel

end Gslib.Lob.Cert12
