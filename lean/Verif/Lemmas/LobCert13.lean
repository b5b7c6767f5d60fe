import Verif.Lemmas.LobCertified

/-! Certificate for `lob_bnd_setup` with n = 13; generated. The data are found numerically, the kernel checks them. -/

namespace Gslib.Lob.Cert13
open Gslib.Lob Gslib.Poly
set_option maxRecDepth 100000
set_option Elab.async false

def P : Par := ⟨13, 512, 12, 6, 21, 1670, 1500, 2236, 2 ^ 2235⟩
def Z : List ℕ := [0, 46690153357836088103094535244550848373492111302640, 153652435348127683134074392901246640421963340285590, 313811530918242573927240960433644447070823801875620, 517090178908663798253062766363066379227806737881410, 750713069893760007431326299625773018511188687507020, 1000000000000000000000000000000000000000000000000000, 1249286930106239992568673700374226981488811312492980, 1482909821091336201746937233636933620772193262118590, 1686188469081757426072759039566355552929176198124380, 1846347564651872316865925607098753359578036659714410, 1953309846642163911896905464755449151626507888697360, 2000000000000000000000000000000000000000000000000000]
def r0 : Row := ⟨true, 320496830, 375502539, true, 10377035, 14442406, [⟨83, 84, false, 815816379, 1429291130, 416716779, 894562949⟩, ⟨127, 128, true, 154248279, 203739234, 98647596, 162825460⟩, ⟨170, 171, false, 54345701, 63366925, 38262284, 56456514⟩, ⟨212, 213, true, 28439523, 30537117, 21626954, 29182666⟩, ⟨253, 254, false, 18943988, 20077285, 16396259, 19969502⟩, ⟨295, 296, true, 15466193, 17000356, 14631761, 17000304⟩, ⟨336, 337, false, 15299774, 18288276, 17060360, 18337640⟩, ⟨378, 379, true, 20264541, 25695759, 25238950, 26172974⟩, ⟨419, 420, false, 34591827, 50635746, 48758821, 56947638⟩, ⟨461, 462, true, 104965232, 199355410, 184660463, 292530235⟩]⟩
def r1 : Row := ⟨true, 236025800, 282525014, true, 10624020, 14783033, [⟨73, 74, false, 1180924963, 1889306485, 688043163, 1274496435⟩, ⟨126, 127, true, 184153519, 256652672, 114105520, 195548146⟩, ⟨169, 170, false, 61425545, 71445346, 43771806, 63750430⟩, ⟨211, 212, true, 30983617, 32766617, 24155090, 31691529⟩, ⟨253, 254, false, 20027937, 21104128, 17044469, 20938828⟩, ⟨295, 296, true, 16141012, 17653868, 15114998, 17653799⟩, ⟨336, 337, false, 15850979, 18875747, 17559499, 18917919⟩, ⟨378, 379, true, 20884508, 26418462, 25956497, 26885922⟩, ⟨419, 420, false, 35542269, 51944992, 50028672, 58361671⟩, ⟨461, 462, true, 107627028, 204228034, 189191938, 299548695⟩]⟩
def r2 : Row := ⟨true, 125966105, 158651136, true, 11236706, 15627390, [⟨59, 60, false, 1514926794, 2209556797, 990870477, 1610002874⟩, ⟨116, 117, true, 273761616, 351036854, 190903411, 286606380⟩, ⟨168, 169, false, 79234464, 99612485, 53657330, 82978557⟩, ⟨211, 212, true, 36063258, 39500695, 27057640, 37113344⟩, ⟨253, 254, false, 23015350, 23880781, 18713772, 23533247⟩, ⟨295, 296, true, 17924533, 19376612, 16343955, 19351519⟩, ⟨336, 337, false, 17273163, 20372340, 18817702, 20393710⟩, ⟨378, 379, true, 22456630, 28236376, 27661855, 28679866⟩, ⟨419, 420, false, 37928300, 55214546, 53201843, 61880471⟩, ⟨461, 462, true, 114263794, 216340806, 200460313, 316969363⟩]⟩
def r3 : Row := ⟨true, 64441153, 85621955, true, 12298692, 17088836, [⟨52, 53, false, 1167450912, 1691676736, 760734007, 1240173215⟩, ⟨103, 104, true, 303169263, 346725022, 235915476, 312281488⟩, ⟨158, 159, false, 118177333, 136157914, 90123134, 121953204⟩, ⟨209, 210, true, 50339952, 57941741, 37053905, 52068011⟩, ⟨252, 253, false, 28707978, 29828902, 23091871, 29231421⟩, ⟨294, 295, true, 20834495, 22686997, 19457113, 22686849⟩, ⟨336, 337, false, 19937657, 23104646, 21065321, 23104919⟩, ⟨378, 379, true, 25301646, 31473854, 30595112, 31885493⟩, ⟨419, 420, false, 42161409, 60955680, 58780623, 68016527⟩, ⟨461, 462, true, 125882062, 237422105, 220084428, 347199295⟩]⟩
def r4 : Row := ⟨true, 39620842, 53779829, true, 13975004, 19390258, [⟨51, 52, false, 713933196, 1080534774, 433983483, 764502420⟩, ⟨94, 95, true, 229260810, 241665009, 188682185, 233691318⟩, ⟨145, 146, false, 125917909, 130039282, 107547240, 127700570⟩, ⟨200, 201, true, 72394121, 78309133, 58170584, 74070058⟩, ⟨251, 252, false, 40049224, 44235915, 30462259, 41194694⟩, ⟨294, 295, true, 27772913, 29060870, 23516714, 28801749⟩, ⟨336, 337, false, 24729336, 27798364, 24776865, 27798536⟩, ⟨377, 378, true, 28575700, 36369444, 35701389, 37135773⟩, ⟨419, 420, false, 49102337, 70210394, 67792089, 77794253⟩, ⟨461, 462, true, 144519202, 270919183, 251298399, 395001744⟩]⟩
def r5 : Row := ⟨true, 27445971, 37644940, true, 16570529, 22940600, [⟨50, 51, false, 512587724, 782295888, 308028835, 549709151⟩, ⟨93, 94, true, 145670205, 160403117, 111464707, 149819947⟩, ⟨136, 137, false, 84189155, 91725964, 82691797, 91724296⟩, ⟨186, 187, true, 70224845, 76066104, 70090292, 76065558⟩, ⟨241, 242, false, 58834715, 60420021, 50392416, 59595599⟩, ⟨292, 293, true, 41400609, 43305038, 33562065, 42177452⟩, ⟨335, 336, false, 32880564, 36349287, 32133932, 36349287⟩, ⟨377, 378, true, 36699524, 45272932, 43951995, 45812435⟩, ⟨419, 420, false, 60506341, 85010479, 82250525, 93143343⟩, ⟨461, 462, true, 174105176, 323315089, 300201925, 469212491⟩]⟩
def r6 : Row := ⟨true, 20665430, 28509684, true, 20665430, 28509684, [⟨50, 51, false, 378764283, 586732139, 222618111, 407275597⟩, ⟨92, 93, true, 106337170, 117820701, 80245706, 109534680⟩, ⟨135, 136, false, 58380442, 61070417, 49977754, 60538206⟩, ⟨177, 178, true, 44764389, 53882439, 52624802, 54412781⟩, ⟨228, 229, false, 52603164, 59722101, 57250974, 59869259⟩, ⟨283, 284, true, 57250974, 59869259, 52603164, 59722101⟩, ⟨334, 335, false, 52624802, 54412781, 44764389, 53882439⟩, ⟨376, 377, true, 49977754, 60538206, 58380442, 61070417⟩, ⟨419, 420, false, 80245706, 109534680, 106337170, 117820701⟩, ⟨461, 462, true, 222618111, 407275597, 378764283, 586732139⟩]⟩
def rows : List Row := [r0, r1, r2, r3, r4, r5, r6]

theorem c0 : cellsOk P (offc P) Z rows 2 0 32 = true := by decide +kernel
theorem c1 : cellsOk P (offc P) Z rows 2 32 32 = true := by decide +kernel
theorem c2 : cellsOk P (offc P) Z rows 2 64 32 = true := by decide +kernel
theorem c3 : cellsOk P (offc P) Z rows 2 96 32 = true := by decide +kernel
theorem c4 : cellsOk P (offc P) Z rows 2 128 32 = true := by decide +kernel
theorem c5 : cellsOk P (offc P) Z rows 2 160 32 = true := by decide +kernel
theorem c6 : cellsOk P (offc P) Z rows 2 192 32 = true := by decide +kernel
theorem c7 : cellsOk P (offc P) Z rows 2 224 32 = true := by decide +kernel
theorem c8 : cellsOk P (offc P) Z rows 2 256 32 = true := by decide +kernel
theorem c9 : cellsOk P (offc P) Z rows 2 288 32 = true := by decide +kernel
theorem c10 : cellsOk P (offc P) Z rows 2 320 32 = true := by decide +kernel
theorem c11 : cellsOk P (offc P) Z rows 2 352 32 = true := by decide +kernel
theorem c12 : cellsOk P (offc P) Z rows 2 384 32 = true := by decide +kernel
theorem c13 : cellsOk P (offc P) Z rows 2 416 32 = true := by decide +kernel
theorem c14 : cellsOk P (offc P) Z rows 2 448 32 = true := by decide +kernel
theorem c15 : cellsOk P (offc P) Z rows 2 480 32 = true := by decide +kernel

theorem cells : ∀ k < 512, cellOk P (offc P) Z rows k (cellC 2 k) (cellR 2 k) = true := by
  intro k hk
  by_cases h0 : k < 32
  · exact cellsOk_iff c0 k (by omega) (by omega)
  by_cases h1 : k < 64
  · exact cellsOk_iff c1 k (by omega) (by omega)
  by_cases h2 : k < 96
  · exact cellsOk_iff c2 k (by omega) (by omega)
  by_cases h3 : k < 128
  · exact cellsOk_iff c3 k (by omega) (by omega)
  by_cases h4 : k < 160
  · exact cellsOk_iff c4 k (by omega) (by omega)
  by_cases h5 : k < 192
  · exact cellsOk_iff c5 k (by omega) (by omega)
  by_cases h6 : k < 224
  · exact cellsOk_iff c6 k (by omega) (by omega)
  by_cases h7 : k < 256
  · exact cellsOk_iff c7 k (by omega) (by omega)
  by_cases h8 : k < 288
  · exact cellsOk_iff c8 k (by omega) (by omega)
  by_cases h9 : k < 320
  · exact cellsOk_iff c9 k (by omega) (by omega)
  by_cases h10 : k < 352
  · exact cellsOk_iff c10 k (by omega) (by omega)
  by_cases h11 : k < 384
  · exact cellsOk_iff c11 k (by omega) (by omega)
  by_cases h12 : k < 416
  · exact cellsOk_iff c12 k (by omega) (by omega)
  by_cases h13 : k < 448
  · exact cellsOk_iff c13 k (by omega) (by omega)
  by_cases h14 : k < 480
  · exact cellsOk_iff c14 k (by omega) (by omega)
  exact cellsOk_iff c15 k (by omega) (by omega)

theorem certified : Certified 13 P Z rows 2 where
  hn := rfl
  ok := ⟨by decide, rfl, by decide +kernel, by decide +kernel, by decide +kernel⟩
  win := ⟨by decide, by decide, by decide, by decide, by decide, by decide⟩
  M := by decide
  B := by decide
  le := by decide
  half := by decide
  stat := by decide +kernel
  cells := cells
  nodes := by decide +kernel

end Gslib.Lob.Cert13
