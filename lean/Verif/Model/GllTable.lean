import Mathlib.Data.Rat.Defs

/-!
# Tabulated Lobatto nodes (poly_imp.h)

Generated from the literals in poly_imp.h: entry `n` is the array `gllz_n` as exact decimals (the compiler rounds each to the nearest
`double`; the model keeps the decimal). An entry is stored as numerator over `10^50`-like powers of ten. -/

namespace Gslib.Poly

/-- poly_imp.h:1937-1941 `gllz_table[n-4]`; the literals are in poly_imp.h before each `gll_lag_n` -/
def gllz : Nat → List Rat
  | 4 => [mkRat 44721359549995793928183473374625524708812367192231 (10 ^ 50)]
  | 5 => [mkRat 65465367070797714379829245624685835556920808239542 (10 ^ 50)]
  | 6 => [mkRat 7650553239294646928510029739593381503657356885361 (10 ^ 49),
      mkRat 28523151648064509631415099404087907191900347272643 (10 ^ 50)]
  | 7 => [mkRat 830223896278566929872032213967465139587170364872 (10 ^ 48),
      mkRat 46884879347071421380377188190876632940559747167184 (10 ^ 50)]
  | 8 => [mkRat 87174014850960661533744576122066343810378066967698 (10 ^ 50),
      mkRat 59170018143314230214451073139795318994570098951733 (10 ^ 50),
      mkRat 20929921790247886876865726034535125529554540508668 (10 ^ 50)]
  | 9 => [mkRat 8997579954114601573123452444183379580514802955661 (10 ^ 49),
      mkRat 67718627951073775344588542709134245071102964761391 (10 ^ 50),
      mkRat 36311746382617815871075206870865921302064227760088 (10 ^ 50)]
  | 10 => [mkRat 91953390816645881382893266082233813415354307544628 (10 ^ 50),
      mkRat 73877386510550507500310617485983072501618510137693 (10 ^ 50),
      mkRat 47792494981044449566117509273125799788677289333057 (10 ^ 50),
      mkRat 16527895766638702462621976595817353323115034354948 (10 ^ 50)]
  | 11 => [mkRat 93400143040805913433227413609938363453991733010996 (10 ^ 50),
      mkRat 78448347366314441862241781610845810350719745509406 (10 ^ 50),
      mkRat 56523532699620500647096396947775166428305214556202 (10 ^ 50),
      mkRat 2957581355869393914319115155590575089410064343486 (10 ^ 49)]
  | 12 => [mkRat 94489927222288222340758013830321871361125655195003 (10 ^ 50),
      mkRat 81927932164400667834864158171690266069046665790364 (10 ^ 50),
      mkRat 6328761530318606776624048544436558582438437454015 (10 ^ 49),
      mkRat 39953094096534893226434979156696690052774803279531 (10 ^ 50),
      mkRat 13655293285492755486406185573969389689841411128206 (10 ^ 50)]
  | 13 => [mkRat 95330984664216391189690546475544915162650788869736 (10 ^ 50),
      mkRat 84634756465187231686592560709875335957803665971441 (10 ^ 50),
      mkRat 68618846908175742607275903956635555292917619812438 (10 ^ 50),
      mkRat 48290982109133620174693723363693362077219326211859 (10 ^ 50),
      mkRat 24928693010623999256867370037422698148881131249298 (10 ^ 50)]
  | 14 => [mkRat 95993504526726090135510016201542438906639151857265 (10 ^ 50),
      mkRat 86780105383034725100022020290826421324987235309444 (10 ^ 50),
      mkRat 72886859909132614058467240052088159565733953169432 (10 ^ 50),
      mkRat 55063940292864705531662270585908063446213831955391 (10 ^ 50),
      mkRat 34272401334271284504390340364167464483311353414031 (10 ^ 50),
      mkRat 11633186888370386765877670973616016794150904425628 (10 ^ 50)]
  | 15 => [mkRat 96524592650383857279585139206960117770765013599709 (10 ^ 50),
      mkRat 88508204422297629882540163148222965198871408520748 (10 ^ 50),
      mkRat 76351968995181520070411847597629161817736852031529 (10 ^ 50),
      mkRat 60625320546984571112352993863673350717973103375992 (10 ^ 50),
      mkRat 42063805471367248092189693873858041298433820549243 (10 ^ 50),
      mkRat 21535395536379423822567944627291771265215790120304 (10 ^ 50)]
  | 16 => [mkRat 96956804627021793295224273836745924138899074650383 (10 ^ 50),
      mkRat 89920053309347209299462826151984947674999760904514 (10 ^ 50),
      mkRat 7920082918618150639310882709631457058080738279802 (10 ^ 49),
      mkRat 65238870288249308946788321964058148032155801282957 (10 ^ 50),
      mkRat 48605942188713761178189078584687469688897730429825 (10 ^ 50),
      mkRat 29983046890076320809835345472230064781546097690778 (10 ^ 50),
      mkRat 10132627352194944784303300504591776253324091440019 (10 ^ 50)]
  | 17 => [mkRat 97313217663141831415697950187372143058895914912251 (10 ^ 50),
      mkRat 91087999591557359562380250639772646753087945186873 (10 ^ 50),
      mkRat 81569625122177030710675055323752665471640239706712 (10 ^ 50),
      mkRat 69102898062768470539491935737245329680641306219042 (10 ^ 50),
      mkRat 54138539933010153912373340750406325167514664796483 (10 ^ 50),
      mkRat 37217443356547704190723468073525781255981731440028 (10 ^ 50),
      mkRat 1895119735183173883042630147531139713449924229225 (10 ^ 49)]
  | 18 => [mkRat 97610555741219854286451892434170006676181344271919 (10 ^ 50),
      mkRat 92064918534753387383785462543127742356235348618904 (10 ^ 50),
      mkRat 83559353521809021371364636232793725743367075916582 (10 ^ 50),
      mkRat 72367932928324268130621036530207067914952520415476 (10 ^ 50),
      mkRat 58850483431866176117353589319355946900083678931622 (10 ^ 50),
      mkRat 43441503691212397534228713674067479584975844516369 (10 ^ 50),
      mkRat 26636265287828098416766533202559594206513618931826 (10 ^ 50),
      mkRat 89749093484652111022645010088561734960603901041125 (10 ^ 51)]
  | 19 => [mkRat 97861176622208009515263406311022256281427733781081 (10 ^ 50),
      mkRat 92890152815258624371794025879654861245016818225195 (10 ^ 50),
      mkRat 85246057779664609308595597004106262523709538083887 (10 ^ 50),
      mkRat 7514942025526130141636374896339440404036593556658 (10 ^ 49),
      mkRat 62890813726522049776683230622873254706861115718956 (10 ^ 50),
      mkRat 48822928568071350277790963762492336977121559965148 (10 ^ 50),
      mkRat 33350484782449861029850010384492701192296337547773 (10 ^ 50),
      mkRat 16918602340928157137515415344488042375289555076585 (10 ^ 50)]
  | 20 => [mkRat 98074370489391417192544643858423091522991062312625 (10 ^ 50),
      mkRat 93593449881266543571618158493062692991557383318105 (10 ^ 50),
      mkRat 86687797808995014130984721461628521396291128831699 (10 ^ 50),
      mkRat 77536826095205587041431752759469134337272185947653 (10 ^ 50),
      mkRat 66377640229031128984640332297115885247574574199149 (10 ^ 50),
      mkRat 53499286403188626164813596182898398300685156913752 (10 ^ 50),
      mkRat 39235318371390929938647470381582436666520332929891 (10 ^ 50),
      mkRat 23955170592298649518240135692708807194151780992738 (10 ^ 50),
      mkRat 80545937238821837975944518159554463022392870092908 (10 ^ 51)]
  | 21 => [mkRat 98257229660454802823448127655540587685917158823641 (10 ^ 50),
      mkRat 94197629695974553429610265066143517664965087404401 (10 ^ 50),
      mkRat 8792947553235904644511535963049440477105815515092 (10 ^ 49),
      mkRat 79600192607771240474431258966035863909041966054978 (10 ^ 50),
      mkRat 69405102606222323262731639319466662875771600610585 (10 ^ 50),
      mkRat 57583196026183068692702187033808528733577300855848 (10 ^ 50),
      mkRat 44411578327900210119451634960735128473505748656706 (10 ^ 50),
      mkRat 30198985650876488727535186785875223202107103406039 (10 ^ 50),
      mkRat 15278551580218546600635832848566943551774899331328 (10 ^ 50)]
  | 22 => [mkRat 98415243845764617655228962221207029660551353611952 (10 ^ 50),
      mkRat 94720428399922868052421376661572950991206204534136 (10 ^ 50),
      mkRat 89006229019090447052965782577908679019953408284715 (10 ^ 50),
      mkRat 8139489276119211360454418480561350424386685149071 (10 ^ 49),
      mkRat 7204872399612021581198818963984657585933454261195 (10 ^ 49),
      mkRat 6116694382842589712262116058699265993454403046077 (10 ^ 49),
      mkRat 48981487518990234980875123568327004167127163579515 (10 ^ 50),
      mkRat 35752071013891953806095728024017912928330710394294 (10 ^ 50),
      mkRat 21760658515928504178795509346539276327500669401419 (10 ^ 50),
      mkRat 73054540010898334761088790464107356192779236333516 (10 ^ 51)]
  | 23 => [mkRat 98552715587873257808146276673809909902061079213965 (10 ^ 50),
      mkRat 9517579557107102041356396798514291558483519254488 (10 ^ 49),
      mkRat 89945855804034501095016032034736715791179834813929 (10 ^ 50),
      mkRat 82965109665128588622320061929000488459851188301333 (10 ^ 50),
      mkRat 74369504117206068394516354306699679128721922895386 (10 ^ 50),
      mkRat 6432636444601362084761455336027687438913118818023 (10 ^ 49),
      mkRat 53031177113684416813011532015229981113034651492734 (10 ^ 50),
      mkRat 40703793791447482919595048821509563955195372399417 (10 ^ 50),
      mkRat 27584154894579306710687763267913520417319110660942 (10 ^ 50),
      mkRat 13927620404066839859186261298276693390854445717444 (10 ^ 50)]
  | 24 => [mkRat 9867305535051608835530867381544749753719197924133 (10 ^ 49),
      mkRat 95574822092988635802697713055064483107073304295574 (10 ^ 50),
      mkRat 90770567511350652199515299646620774920842011387828 (10 ^ 50),
      mkRat 84346407015487204062330503742334228584107610081033 (10 ^ 50),
      mkRat 7641704824204933077873752809522936513210604492369 (10 ^ 49),
      mkRat 67124010526412869983566485818700675657402328894643 (10 ^ 50),
      mkRat 56633135797929531218940954454228377043889499712648 (10 ^ 50),
      mkRat 45131637321432261824821849156962244882308821831249 (10 ^ 50),
      mkRat 3282476133755109120333891793596093437011778687727 (10 ^ 49),
      mkRat 19932125339083266723657253912499073081187559142148 (10 ^ 50),
      mkRat 66837993737228578113641808391677309796223208917628 (10 ^ 51)]
  | _ => []

end Gslib.Poly
