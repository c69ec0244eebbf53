import Verif.Lemmas.QuadCheck
import Verif.Model.Tables.Tri
/-! Generated by tools/gen_tables.py: moments of the rules in src/quadrules/WitherdenVincent2015_Tri.cpp. -/
namespace Tandem.QuadTable
set_option maxRecDepth 100000

def tri1N : List Pt2 := [
  ⟨nat_lit 66666666666666666666666666666666666667, nat_lit 66666666666666666666666666666666666667, nat_lit 200000000000000000000000000000000000000⟩]

theorem tri1_eq : normWV2 tri1 = some tri1N := by decide +kernel
theorem tri1_in : all2In (2 * 10 ^ 38) tri1N = true := by decide +kernel
theorem tri1_ok : all2 (2 * 10 ^ 38) (4 * 10 ^ 38) (10 ^ 38) tri1N 1 = true := by decide +kernel

def tri2N : List Pt2 := [
  ⟨nat_lit 33333333333333333333333333333333333333, nat_lit 133333333333333333333333333333333333333, nat_lit 66666666666666666666666666666666666667⟩,
  ⟨nat_lit 133333333333333333333333333333333333333, nat_lit 33333333333333333333333333333333333333, nat_lit 66666666666666666666666666666666666667⟩,
  ⟨nat_lit 33333333333333333333333333333333333333, nat_lit 33333333333333333333333333333333333333, nat_lit 66666666666666666666666666666666666667⟩]

theorem tri2_eq : normWV2 tri2 = some tri2N := by decide +kernel
theorem tri2_in : all2In (2 * 10 ^ 38) tri2N = true := by decide +kernel
theorem tri2_ok : all2 (2 * 10 ^ 38) (4 * 10 ^ 38) (10 ^ 38) tri2N 2 = true := by decide +kernel

def tri4N : List Pt2 := [
  ⟨nat_lit 89189698183192977263665850776610397680, nat_lit 21620603633614045472668298446779204640, nat_lit 44676317935602293139001401686624560874⟩,
  ⟨nat_lit 21620603633614045472668298446779204640, nat_lit 89189698183192977263665850776610397680, nat_lit 44676317935602293139001401686624560874⟩,
  ⟨nat_lit 89189698183192977263665850776610397680, nat_lit 89189698183192977263665850776610397680, nat_lit 44676317935602293139001401686624560874⟩,
  ⟨nat_lit 18315242701954148691914292680440301571, nat_lit 163369514596091702616171414639119396858, nat_lit 21990348731064373527665264980042105793⟩,
  ⟨nat_lit 163369514596091702616171414639119396858, nat_lit 18315242701954148691914292680440301571, nat_lit 21990348731064373527665264980042105793⟩,
  ⟨nat_lit 18315242701954148691914292680440301571, nat_lit 18315242701954148691914292680440301571, nat_lit 21990348731064373527665264980042105793⟩]

theorem tri4_eq : normWV2 tri4 = some tri4N := by decide +kernel
theorem tri4_in : all2In (2 * 10 ^ 38) tri4N = true := by decide +kernel
theorem tri4_ok : all2 (2 * 10 ^ 38) (4 * 10 ^ 38) (10 ^ 38) tri4N 4 = true := by decide +kernel

def tri5N : List Pt2 := [
  ⟨nat_lit 666666666666666666666666666666666666670, nat_lit 666666666666666666666666666666666666670, nat_lit 450000000000000000000000000000000000000⟩,
  ⟨nat_lit 202573014646912677601974723830247656110, nat_lit 1594853970706174644796050552339504687780, nat_lit 251878361089654305191367891000362667320⟩,
  ⟨nat_lit 1594853970706174644796050552339504687780, nat_lit 202573014646912677601974723830247656110, nat_lit 251878361089654305191367891000362667320⟩,
  ⟨nat_lit 202573014646912677601974723830247656110, nat_lit 202573014646912677601974723830247656110, nat_lit 251878361089654305191367891000362667320⟩,
  ⟨nat_lit 940284128210230179540882419026895201032, nat_lit 119431743579539640918235161946209597940, nat_lit 264788305577012361475298775666303999350⟩,
  ⟨nat_lit 119431743579539640918235161946209597940, nat_lit 940284128210230179540882419026895201032, nat_lit 264788305577012361475298775666303999350⟩,
  ⟨nat_lit 940284128210230179540882419026895201032, nat_lit 940284128210230179540882419026895201032, nat_lit 264788305577012361475298775666303999350⟩]

theorem tri5_eq : normWV2 tri5 = some tri5N := by decide +kernel
theorem tri5_in : all2In (2 * 10 ^ 39) tri5N = true := by decide +kernel
theorem tri5_ok : all2 (2 * 10 ^ 39) (4 * 10 ^ 39) (10 ^ 38) tri5N 5 = true := by decide +kernel

def tri6N : List Pt2 := [
  ⟨nat_lit 1261780289830044566806632057416383146800, nat_lit 17476439420339910866386735885167233706400, nat_lit 1016898127404136338418736182137379680900⟩,
  ⟨nat_lit 17476439420339910866386735885167233706400, nat_lit 1261780289830044566806632057416383146800, nat_lit 1016898127404136338418736182137379680900⟩,
  ⟨nat_lit 1261780289830044566806632057416383146800, nat_lit 1261780289830044566806632057416383146800, nat_lit 1016898127404136338418736182137379680900⟩,
  ⟨nat_lit 4985734903418208425832771062140381521800, nat_lit 10028530193163583148334457875719236956481, nat_lit 2335725514527587320505792227711588826500⟩,
  ⟨nat_lit 10028530193163583148334457875719236956481, nat_lit 4985734903418208425832771062140381521800, nat_lit 2335725514527587320505792227711588826500⟩,
  ⟨nat_lit 4985734903418208425832771062140381521800, nat_lit 4985734903418208425832771062140381521800, nat_lit 2335725514527587320505792227711588826500⟩,
  ⟨nat_lit 1062900996896338947064993432627962939900, nat_lit 12730049982427972944602851888240993996100, nat_lit 1657021512367471503871069128408849079600⟩,
  ⟨nat_lit 12730049982427972944602851888240993996100, nat_lit 1062900996896338947064993432627962939900, nat_lit 1657021512367471503871069128408849079600⟩,
  ⟨nat_lit 6207049020675688108332154679131043064100, nat_lit 12730049982427972944602851888240993996100, nat_lit 1657021512367471503871069128408849079600⟩,
  ⟨nat_lit 12730049982427972944602851888240993996100, nat_lit 6207049020675688108332154679131043064100, nat_lit 1657021512367471503871069128408849079600⟩,
  ⟨nat_lit 6207049020675688108332154679131043064100, nat_lit 1062900996896338947064993432627962939900, nat_lit 1657021512367471503871069128408849079600⟩,
  ⟨nat_lit 1062900996896338947064993432627962939900, nat_lit 6207049020675688108332154679131043064100, nat_lit 1657021512367471503871069128408849079600⟩]

theorem tri6_eq : normWV2 tri6 = some tri6N := by decide +kernel
theorem tri6_in : all2In (2 * 10 ^ 40) tri6N = true := by decide +kernel
theorem tri6_ok : all2 (2 * 10 ^ 40) (4 * 10 ^ 40) (10 ^ 38) tri6N 6 = true := by decide +kernel

def tri7N : List Pt2 := [
  ⟨nat_lit 67461297109175697429943452601632476150, nat_lit 1865077405781648605140113094796735047700, nat_lit 33090100221584262071955896945834891238⟩,
  ⟨nat_lit 1865077405781648605140113094796735047700, nat_lit 67461297109175697429943452601632476150, nat_lit 33090100221584262071955896945834891238⟩,
  ⟨nat_lit 67461297109175697429943452601632476150, nat_lit 67461297109175697429943452601632476150, nat_lit 33090100221584262071955896945834891238⟩,
  ⟨nat_lit 483154765190807117900373539675563999180, nat_lit 1033690469618385764199252920648872001638, nat_lit 255888342460311145565802470369292621330⟩,
  ⟨nat_lit 1033690469618385764199252920648872001638, nat_lit 483154765190807117900373539675563999180, nat_lit 255888342460311145565802470369292621330⟩,
  ⟨nat_lit 483154765190807117900373539675563999180, nat_lit 483154765190807117900373539675563999180, nat_lit 255888342460311145565802470369292621330⟩,
  ⟨nat_lit 948619385009436468419161471898371564964, nat_lit 102761229981127063161677056203256870070, nat_lit 154173292371972135669643041667482772930⟩,
  ⟨nat_lit 102761229981127063161677056203256870070, nat_lit 948619385009436468419161471898371564964, nat_lit 154173292371972135669643041667482772930⟩,
  ⟨nat_lit 948619385009436468419161471898371564964, nat_lit 948619385009436468419161471898371564964, nat_lit 154173292371972135669643041667482772930⟩,
  ⟨nat_lit 94073289305190466682819950713769951030, nat_lit 1508560081100106354712478649256239927380, nat_lit 111757465806399561679632628842028190590⟩,
  ⟨nat_lit 1508560081100106354712478649256239927380, nat_lit 94073289305190466682819950713769951030, nat_lit 111757465806399561679632628842028190590⟩,
  ⟨nat_lit 397366629594703178604701400029990121580, nat_lit 1508560081100106354712478649256239927380, nat_lit 111757465806399561679632628842028190590⟩,
  ⟨nat_lit 1508560081100106354712478649256239927380, nat_lit 397366629594703178604701400029990121580, nat_lit 111757465806399561679632628842028190590⟩,
  ⟨nat_lit 397366629594703178604701400029990121580, nat_lit 94073289305190466682819950713769951030, nat_lit 111757465806399561679632628842028190590⟩,
  ⟨nat_lit 94073289305190466682819950713769951030, nat_lit 397366629594703178604701400029990121580, nat_lit 111757465806399561679632628842028190590⟩]

theorem tri7_eq : normWV2 tri7 = some tri7N := by decide +kernel
theorem tri7_in : all2In (2 * 10 ^ 39) tri7N = true := by decide +kernel
theorem tri7_ok : all2 (2 * 10 ^ 39) (4 * 10 ^ 39) (10 ^ 38) tri7N 7 = true := by decide +kernel

def tri8N : List Pt2 := [
  ⟨nat_lit 666666666666666666666666666666666666670, nat_lit 666666666666666666666666666666666666670, nat_lit 288631215355574336502182220978129249600⟩,
  ⟨nat_lit 918585176585446312057631028988338644121, nat_lit 162829646829107375884737942023322711760, nat_lit 190183268534569249587792208777168633200⟩,
  ⟨nat_lit 162829646829107375884737942023322711760, nat_lit 918585176585446312057631028988338644121, nat_lit 190183268534569249587792208777168633200⟩,
  ⟨nat_lit 918585176585446312057631028988338644121, nat_lit 918585176585446312057631028988338644121, nat_lit 190183268534569249587792208777168633200⟩,
  ⟨nat_lit 341138615503520413244587002982929002040, nat_lit 1317722768992959173510825994034141995930, nat_lit 206434741069436500563583100584258060030⟩,
  ⟨nat_lit 1317722768992959173510825994034141995930, nat_lit 341138615503520413244587002982929002040, nat_lit 206434741069436500563583100584258060030⟩,
  ⟨nat_lit 341138615503520413244587002982929002040, nat_lit 341138615503520413244587002982929002040, nat_lit 206434741069436500563583100584258060030⟩,
  ⟨nat_lit 101094456634061950916847101193197893690, nat_lit 1797811086731876098166305797613604212620, nat_lit 64916995246396160621851856683561193593⟩,
  ⟨nat_lit 1797811086731876098166305797613604212620, nat_lit 101094456634061950916847101193197893690, nat_lit 64916995246396160621851856683561193593⟩,
  ⟨nat_lit 101094456634061950916847101193197893690, nat_lit 101094456634061950916847101193197893690, nat_lit 64916995246396160621851856683561193593⟩,
  ⟨nat_lit 16789554819915210674427669078588898380, nat_lit 1456984785910808562482000758352123926040, nat_lit 54460628348869988529689380147817848320⟩,
  ⟨nat_lit 1456984785910808562482000758352123926040, nat_lit 16789554819915210674427669078588898380, nat_lit 54460628348869988529689380147817848320⟩,
  ⟨nat_lit 526225659269276226843571572569287175580, nat_lit 1456984785910808562482000758352123926040, nat_lit 54460628348869988529689380147817848320⟩,
  ⟨nat_lit 1456984785910808562482000758352123926040, nat_lit 526225659269276226843571572569287175580, nat_lit 54460628348869988529689380147817848320⟩,
  ⟨nat_lit 526225659269276226843571572569287175580, nat_lit 16789554819915210674427669078588898380, nat_lit 54460628348869988529689380147817848320⟩,
  ⟨nat_lit 16789554819915210674427669078588898380, nat_lit 526225659269276226843571572569287175580, nat_lit 54460628348869988529689380147817848320⟩]

theorem tri8_eq : normWV2 tri8 = some tri8N := by decide +kernel
theorem tri8_in : all2In (2 * 10 ^ 39) tri8N = true := by decide +kernel
theorem tri8_ok : all2 (2 * 10 ^ 39) (4 * 10 ^ 39) (10 ^ 38) tri8N 8 = true := by decide +kernel

def tri9N : List Pt2 := [
  ⟨nat_lit 666666666666666666666666666666666666670, nat_lit 666666666666666666666666666666666666670, nat_lit 194271592565597667638483965014577259480⟩,
  ⟨nat_lit 874179182985873274539860728870709945360, nat_lit 251641634028253450920278542258580109280, nat_lit 155655082009548558633478712598807912240⟩,
  ⟨nat_lit 251641634028253450920278542258580109280, nat_lit 874179182985873274539860728870709945360, nat_lit 155655082009548558633478712598807912240⟩,
  ⟨nat_lit 874179182985873274539860728870709945360, nat_lit 874179182985873274539860728870709945360, nat_lit 155655082009548558633478712598807912240⟩,
  ⟨nat_lit 376407071238065460481922560934671136220, nat_lit 1247185857523869079036154878130657727550, nat_lit 159295477854420506065783548528090546500⟩,
  ⟨nat_lit 1247185857523869079036154878130657727550, nat_lit 376407071238065460481922560934671136220, nat_lit 159295477854420506065783548528090546500⟩,
  ⟨nat_lit 376407071238065460481922560934671136220, nat_lit 376407071238065460481922560934671136220, nat_lit 159295477854420506065783548528090546500⟩,
  ⟨nat_lit 979365038397475255567413849672385598738, nat_lit 41269923205049488865172300655228802520, nat_lit 62669400454278141073709662574418630986⟩,
  ⟨nat_lit 41269923205049488865172300655228802520, nat_lit 979365038397475255567413849672385598738, nat_lit 62669400454278141073709662574418630986⟩,
  ⟨nat_lit 979365038397475255567413849672385598738, nat_lit 979365038397475255567413849672385598738, nat_lit 62669400454278141073709662574418630986⟩,
  ⟨nat_lit 89459026788905419730213179932552730000, nat_lit 1821081946422189160539573640134894540000, nat_lit 51155351317396062523357597117999647955⟩,
  ⟨nat_lit 1821081946422189160539573640134894540000, nat_lit 89459026788905419730213179932552730000, nat_lit 51155351317396062523357597117999647955⟩,
  ⟨nat_lit 89459026788905419730213179932552730000, nat_lit 89459026788905419730213179932552730000, nat_lit 51155351317396062523357597117999647955⟩,
  ⟨nat_lit 73676824109472567269635197566770204620, nat_lit 1482397197568996041380159747046847654870, nat_lit 86567078754578754578754578754578754579⟩,
  ⟨nat_lit 1482397197568996041380159747046847654870, nat_lit 73676824109472567269635197566770204620, nat_lit 86567078754578754578754578754578754579⟩,
  ⟨nat_lit 443925978321531391350205055386382140510, nat_lit 1482397197568996041380159747046847654870, nat_lit 86567078754578754578754578754578754579⟩,
  ⟨nat_lit 1482397197568996041380159747046847654870, nat_lit 443925978321531391350205055386382140510, nat_lit 86567078754578754578754578754578754579⟩,
  ⟨nat_lit 443925978321531391350205055386382140510, nat_lit 73676824109472567269635197566770204620, nat_lit 86567078754578754578754578754578754579⟩,
  ⟨nat_lit 73676824109472567269635197566770204620, nat_lit 443925978321531391350205055386382140510, nat_lit 86567078754578754578754578754578754579⟩]

theorem tri9_eq : normWV2 tri9 = some tri9N := by decide +kernel
theorem tri9_in : all2In (2 * 10 ^ 39) tri9N = true := by decide +kernel
theorem tri9_ok : all2 (2 * 10 ^ 39) (4 * 10 ^ 39) (10 ^ 38) tri9N 9 = true := by decide +kernel

def tri10N : List Pt2 := [
  ⟨nat_lit 666666666666666666666666666666666666670, nat_lit 666666666666666666666666666666666666670, nat_lit 163486658292571932856237369968355224390⟩,
  ⟨nat_lit 64110746433887025861969178672979477930, nat_lit 1871778507132225948276061642654041044140, nat_lit 26705937626299132551145956798137306994⟩,
  ⟨nat_lit 1871778507132225948276061642654041044140, nat_lit 64110746433887025861969178672979477930, nat_lit 26705937626299132551145956798137306994⟩,
  ⟨nat_lit 64110746433887025861969178672979477930, nat_lit 64110746433887025861969178672979477930, nat_lit 26705937626299132551145956798137306994⟩,
  ⟨nat_lit 284322202113128770184324206381916643440, nat_lit 1431355595773742459631351587236166713120, nat_lit 91915927209489456027575819265095632800⟩,
  ⟨nat_lit 1431355595773742459631351587236166713120, nat_lit 284322202113128770184324206381916643440, nat_lit 91915927209489456027575819265095632800⟩,
  ⟨nat_lit 284322202113128770184324206381916643440, nat_lit 284322202113128770184324206381916643440, nat_lit 91915927209489456027575819265095632800⟩,
  ⟨nat_lit 643625990577670842450195121972097427470, nat_lit 1060108237854688056554191347891388233782, nat_lit 127809812792848090865797467525306643730⟩,
  ⟨nat_lit 1060108237854688056554191347891388233782, nat_lit 643625990577670842450195121972097427470, nat_lit 127809812792848090865797467525306643730⟩,
  ⟨nat_lit 296265771567641100995613530136514338750, nat_lit 1060108237854688056554191347891388233782, nat_lit 127809812792848090865797467525306643730⟩,
  ⟨nat_lit 1060108237854688056554191347891388233782, nat_lit 296265771567641100995613530136514338750, nat_lit 127809812792848090865797467525306643730⟩,
  ⟨nat_lit 296265771567641100995613530136514338750, nat_lit 643625990577670842450195121972097427470, nat_lit 127809812792848090865797467525306643730⟩,
  ⟨nat_lit 643625990577670842450195121972097427470, nat_lit 296265771567641100995613530136514338750, nat_lit 127809812792848090865797467525306643730⟩,
  ⟨nat_lit 59239778977459535267672538852085601050, nat_lit 1202466657366918490909485786917375618750, nat_lit 68369296325918857257383168082684580517⟩,
  ⟨nat_lit 1202466657366918490909485786917375618750, nat_lit 59239778977459535267672538852085601050, nat_lit 68369296325918857257383168082684580517⟩,
  ⟨nat_lit 738293563655621973822841674230538780200, nat_lit 1202466657366918490909485786917375618750, nat_lit 68369296325918857257383168082684580517⟩,
  ⟨nat_lit 1202466657366918490909485786917375618750, nat_lit 738293563655621973822841674230538780200, nat_lit 68369296325918857257383168082684580517⟩,
  ⟨nat_lit 738293563655621973822841674230538780200, nat_lit 59239778977459535267672538852085601050, nat_lit 68369296325918857257383168082684580517⟩,
  ⟨nat_lit 59239778977459535267672538852085601050, nat_lit 738293563655621973822841674230538780200, nat_lit 68369296325918857257383168082684580517⟩,
  ⟨nat_lit 56735330679876878500871511156260411190, nat_lit 1615861201845758130159899805763488218140, nat_lit 50595515414576768778085581365666435125⟩,
  ⟨nat_lit 1615861201845758130159899805763488218140, nat_lit 56735330679876878500871511156260411190, nat_lit 50595515414576768778085581365666435125⟩,
  ⟨nat_lit 327403467474364991339228683080251370680, nat_lit 1615861201845758130159899805763488218140, nat_lit 50595515414576768778085581365666435125⟩,
  ⟨nat_lit 1615861201845758130159899805763488218140, nat_lit 327403467474364991339228683080251370680, nat_lit 50595515414576768778085581365666435125⟩,
  ⟨nat_lit 327403467474364991339228683080251370680, nat_lit 56735330679876878500871511156260411190, nat_lit 50595515414576768778085581365666435125⟩,
  ⟨nat_lit 56735330679876878500871511156260411190, nat_lit 327403467474364991339228683080251370680, nat_lit 50595515414576768778085581365666435125⟩]

theorem tri10_eq : normWV2 tri10 = some tri10N := by decide +kernel
theorem tri10_in : all2In (2 * 10 ^ 39) tri10N = true := by decide +kernel
theorem tri10_ok : all2 (2 * 10 ^ 39) (4 * 10 ^ 39) (10 ^ 38) tri10N 10 = true := by decide +kernel

def tri11N : List Pt2 := [
  ⟨nat_lit 6666666666666666666666666666666666666700, nat_lit 6666666666666666666666666666666666666700, nat_lit 1715223594644484342763982507306539889500⟩,
  ⟨nat_lit 569708352287438189596327336101809813500, nat_lit 18860583295425123620807345327796380373000, nat_lit 208637410257893917460569841973246337030⟩,
  ⟨nat_lit 18860583295425123620807345327796380373000, nat_lit 569708352287438189596327336101809813500, nat_lit 208637410257893917460569841973246337030⟩,
  ⟨nat_lit 569708352287438189596327336101809813500, nat_lit 569708352287438189596327336101809813500, nat_lit 208637410257893917460569841973246337030⟩,
  ⟨nat_lit 4204399134063565140161245366915852202700, nat_lit 11591201731872869719677509266168295594600, nat_lit 1410313682234331566841477183458567396300⟩,
  ⟨nat_lit 11591201731872869719677509266168295594600, nat_lit 4204399134063565140161245366915852202700, nat_lit 1410313682234331566841477183458567396300⟩,
  ⟨nat_lit 4204399134063565140161245366915852202700, nat_lit 4204399134063565140161245366915852202700, nat_lit 1410313682234331566841477183458567396300⟩,
  ⟨nat_lit 2052709654244928608982301397698883240600, nat_lit 15894580691510142782035397204602233518900, nat_lit 772615184740386449532676091788022982930⟩,
  ⟨nat_lit 15894580691510142782035397204602233518900, nat_lit 2052709654244928608982301397698883240600, nat_lit 772615184740386449532676091788022982930⟩,
  ⟨nat_lit 2052709654244928608982301397698883240600, nat_lit 2052709654244928608982301397698883240600, nat_lit 772615184740386449532676091788022982930⟩,
  ⟨nat_lit 9917838019317818261298802380072319852722, nat_lit 164323961364363477402395239855360294600, nat_lit 332125461091707391527516785501121217300⟩,
  ⟨nat_lit 164323961364363477402395239855360294600, nat_lit 9917838019317818261298802380072319852722, nat_lit 332125461091707391527516785501121217300⟩,
  ⟨nat_lit 9917838019317818261298802380072319852722, nat_lit 9917838019317818261298802380072319852722, nat_lit 332125461091707391527516785501121217300⟩,
  ⟨nat_lit 8769318535287043820466717256850389083400, nat_lit 2461362929425912359066565486299221833300, nat_lit 1346323081589366023956744112465755717700⟩,
  ⟨nat_lit 2461362929425912359066565486299221833300, nat_lit 8769318535287043820466717256850389083400, nat_lit 1346323081589366023956744112465755717700⟩,
  ⟨nat_lit 8769318535287043820466717256850389083400, nat_lit 8769318535287043820466717256850389083400, nat_lit 1346323081589366023956744112465755717700⟩,
  ⟨nat_lit 2986495773041647723914515757543470452600, nat_lit 16866995673237063243979828727976498610800, nat_lit 205805791459065549861612549679590594380⟩,
  ⟨nat_lit 16866995673237063243979828727976498610800, nat_lit 2986495773041647723914515757543470452600, nat_lit 205805791459065549861612549679590594380⟩,
  ⟨nat_lit 146508553721289032105655514480030936700, nat_lit 16866995673237063243979828727976498610800, nat_lit 205805791459065549861612549679590594380⟩,
  ⟨nat_lit 16866995673237063243979828727976498610800, nat_lit 146508553721289032105655514480030936700, nat_lit 205805791459065549861612549679590594380⟩,
  ⟨nat_lit 146508553721289032105655514480030936700, nat_lit 2986495773041647723914515757543470452600, nat_lit 205805791459065549861612549679590594380⟩,
  ⟨nat_lit 2986495773041647723914515757543470452600, nat_lit 146508553721289032105655514480030936700, nat_lit 205805791459065549861612549679590594380⟩,
  ⟨nat_lit 920210003308599117799195525897345102400, nat_lit 13288167483937283948070953526650315723000, nat_lit 806649532810011051684898358175962598420⟩,
  ⟨nat_lit 13288167483937283948070953526650315723000, nat_lit 920210003308599117799195525897345102400, nat_lit 806649532810011051684898358175962598420⟩,
  ⟨nat_lit 5791622512754116934129850947452339174600, nat_lit 13288167483937283948070953526650315723000, nat_lit 806649532810011051684898358175962598420⟩,
  ⟨nat_lit 13288167483937283948070953526650315723000, nat_lit 5791622512754116934129850947452339174600, nat_lit 806649532810011051684898358175962598420⟩,
  ⟨nat_lit 5791622512754116934129850947452339174600, nat_lit 920210003308599117799195525897345102400, nat_lit 806649532810011051684898358175962598420⟩,
  ⟨nat_lit 920210003308599117799195525897345102400, nat_lit 5791622512754116934129850947452339174600, nat_lit 806649532810011051684898358175962598420⟩]

theorem tri11_eq : normWV2 tri11 = some tri11N := by decide +kernel
theorem tri11_in : all2In (2 * 10 ^ 40) tri11N = true := by decide +kernel
theorem tri11_ok : all2 (2 * 10 ^ 40) (4 * 10 ^ 40) (10 ^ 38) tri11N 11 = true := by decide +kernel

def tri12N : List Pt2 := [
  ⟨nat_lit 976407501891083103556016247737629513849, nat_lit 47184996217833792887967504524740972300, nat_lit 48533676162904066301435945151216167798⟩,
  ⟨nat_lit 47184996217833792887967504524740972300, nat_lit 976407501891083103556016247737629513849, nat_lit 48533676162904066301435945151216167798⟩,
  ⟨nat_lit 976407501891083103556016247737629513849, nat_lit 976407501891083103556016247737629513849, nat_lit 48533676162904066301435945151216167798⟩,
  ⟨nat_lit 218515655318708581167494624008617490620, nat_lit 1562968689362582837665010751982765018760, nat_lit 56972104137755089999388947815030892501⟩,
  ⟨nat_lit 1562968689362582837665010751982765018760, nat_lit 218515655318708581167494624008617490620, nat_lit 56972104137755089999388947815030892501⟩,
  ⟨nat_lit 218515655318708581167494624008617490620, nat_lit 218515655318708581167494624008617490620, nat_lit 56972104137755089999388947815030892501⟩,
  ⟨nat_lit 542925014029852169755991896045090197070, nat_lit 914149971940295660488016207909819605860, nat_lit 125082426391805520938647562891039678260⟩,
  ⟨nat_lit 914149971940295660488016207909819605860, nat_lit 542925014029852169755991896045090197070, nat_lit 125082426391805520938647562891039678260⟩,
  ⟨nat_lit 542925014029852169755991896045090197070, nat_lit 542925014029852169755991896045090197070, nat_lit 125082426391805520938647562891039678260⟩,
  ⟨nat_lit 49292726872671189533462394428669156400, nat_lit 1901414546254657620933075211142661687190, nat_lit 15863285019947276918629575811719468968⟩,
  ⟨nat_lit 1901414546254657620933075211142661687190, nat_lit 49292726872671189533462394428669156400, nat_lit 15863285019947276918629575811719468968⟩,
  ⟨nat_lit 49292726872671189533462394428669156400, nat_lit 49292726872671189533462394428669156400, nat_lit 15863285019947276918629575811719468968⟩,
  ⟨nat_lit 880223297317186222026907406145816382110, nat_lit 239553405365627555946185187708367235790, nat_lit 99836669856121884238103444121988601916⟩,
  ⟨nat_lit 239553405365627555946185187708367235790, nat_lit 880223297317186222026907406145816382110, nat_lit 99836669856121884238103444121988601916⟩,
  ⟨nat_lit 880223297317186222026907406145816382110, nat_lit 880223297317186222026907406145816382110, nat_lit 99836669856121884238103444121988601916⟩,
  ⟨nat_lit 583311359476681921067827623867881234370, nat_lit 1370620327812783799968889372274260501400, nat_lit 43567170077215115865262872678583643728⟩,
  ⟨nat_lit 1370620327812783799968889372274260501400, nat_lit 583311359476681921067827623867881234370, nat_lit 43567170077215115865262872678583643728⟩,
  ⟨nat_lit 46068312710534278963283003857858264230, nat_lit 1370620327812783799968889372274260501400, nat_lit 43567170077215115865262872678583643728⟩,
  ⟨nat_lit 1370620327812783799968889372274260501400, nat_lit 46068312710534278963283003857858264230, nat_lit 43567170077215115865262872678583643728⟩,
  ⟨nat_lit 46068312710534278963283003857858264230, nat_lit 583311359476681921067827623867881234370, nat_lit 43567170077215115865262872678583643728⟩,
  ⟨nat_lit 583311359476681921067827623867881234370, nat_lit 46068312710534278963283003857858264230, nat_lit 43567170077215115865262872678583643728⟩,
  ⟨nat_lit 232592039355853173261496268299402277800, nat_lit 1256499503367112133675792276734458396750, nat_lit 86454727318828421098266541833718459270⟩,
  ⟨nat_lit 1256499503367112133675792276734458396750, nat_lit 232592039355853173261496268299402277800, nat_lit 86454727318828421098266541833718459270⟩,
  ⟨nat_lit 510908457277034693062711454966139325460, nat_lit 1256499503367112133675792276734458396750, nat_lit 86454727318828421098266541833718459270⟩,
  ⟨nat_lit 1256499503367112133675792276734458396750, nat_lit 510908457277034693062711454966139325460, nat_lit 86454727318828421098266541833718459270⟩,
  ⟨nat_lit 510908457277034693062711454966139325460, nat_lit 232592039355853173261496268299402277800, nat_lit 86454727318828421098266541833718459270⟩,
  ⟨nat_lit 232592039355853173261496268299402277800, nat_lit 510908457277034693062711454966139325460, nat_lit 86454727318828421098266541833718459270⟩,
  ⟨nat_lit 1702675585020480083236007220864116897190, nat_lit 254559434467178737575683749494764677870, nat_lit 30167355153022877171701180925533825614⟩,
  ⟨nat_lit 254559434467178737575683749494764677870, nat_lit 1702675585020480083236007220864116897190, nat_lit 30167355153022877171701180925533825614⟩,
  ⟨nat_lit 42764980512341179188309029641118424940, nat_lit 254559434467178737575683749494764677870, nat_lit 30167355153022877171701180925533825614⟩,
  ⟨nat_lit 254559434467178737575683749494764677870, nat_lit 42764980512341179188309029641118424940, nat_lit 30167355153022877171701180925533825614⟩,
  ⟨nat_lit 42764980512341179188309029641118424940, nat_lit 1702675585020480083236007220864116897190, nat_lit 30167355153022877171701180925533825614⟩,
  ⟨nat_lit 1702675585020480083236007220864116897190, nat_lit 42764980512341179188309029641118424940, nat_lit 30167355153022877171701180925533825614⟩]

theorem tri12_eq : normWV2 tri12 = some tri12N := by decide +kernel
theorem tri12_in : all2In (2 * 10 ^ 39) tri12N = true := by decide +kernel
theorem tri12_ok : all2 (2 * 10 ^ 39) (4 * 10 ^ 39) (10 ^ 38) tri12N 12 = true := by decide +kernel

def tri13N : List Pt2 := [
  ⟨nat_lit 666666666666666666666666666666666666670, nat_lit 666666666666666666666666666666666666670, nat_lit 135920073173663288563548849361769759020⟩,
  ⟨nat_lit 978153892905078699801379438180408775310, nat_lit 43692214189842600397241123639182449380, nat_lit 47988803857789461547421598901919307449⟩,
  ⟨nat_lit 43692214189842600397241123639182449380, nat_lit 978153892905078699801379438180408775310, nat_lit 47988803857789461547421598901919307449⟩,
  ⟨nat_lit 978153892905078699801379438180408775310, nat_lit 978153892905078699801379438180408775310, nat_lit 47988803857789461547421598901919307449⟩,
  ⟨nat_lit 442744572583665801309625109410158155520, nat_lit 1114510854832668397380749781179683688960, nat_lit 116556970238399962809534167026679619030⟩,
  ⟨nat_lit 1114510854832668397380749781179683688960, nat_lit 442744572583665801309625109410158155520, nat_lit 116556970238399962809534167026679619030⟩,
  ⟨nat_lit 442744572583665801309625109410158155520, nat_lit 442744572583665801309625109410158155520, nat_lit 116556970238399962809534167026679619030⟩,
  ⟨nat_lit 853882828519600812041625070062748422810, nat_lit 292234342960798375916749859874503154380, nat_lit 111203935060906657414514932020922935060⟩,
  ⟨nat_lit 292234342960798375916749859874503154380, nat_lit 853882828519600812041625070062748422810, nat_lit 111203935060906657414514932020922935060⟩,
  ⟨nat_lit 853882828519600812041625070062748422810, nat_lit 853882828519600812041625070062748422810, nat_lit 111203935060906657414514932020922935060⟩,
  ⟨nat_lit 43019362217686367738582627068104165200, nat_lit 1913961275564627264522834745863791669610, nat_lit 12104674207078343683585600064581648939⟩,
  ⟨nat_lit 1913961275564627264522834745863791669610, nat_lit 43019362217686367738582627068104165200, nat_lit 12104674207078343683585600064581648939⟩,
  ⟨nat_lit 43019362217686367738582627068104165200, nat_lit 43019362217686367738582627068104165200, nat_lit 12104674207078343683585600064581648939⟩,
  ⟨nat_lit 175790966064394649186187005000666202230, nat_lit 1497014231799904390346037191577419300090, nat_lit 48358079623187638274891491146121518585⟩,
  ⟨nat_lit 1497014231799904390346037191577419300090, nat_lit 175790966064394649186187005000666202230, nat_lit 48358079623187638274891491146121518585⟩,
  ⟨nat_lit 327194802135700960467775803421914497680, nat_lit 1497014231799904390346037191577419300090, nat_lit 48358079623187638274891491146121518585⟩,
  ⟨nat_lit 1497014231799904390346037191577419300090, nat_lit 327194802135700960467775803421914497680, nat_lit 48358079623187638274891491146121518585⟩,
  ⟨nat_lit 327194802135700960467775803421914497680, nat_lit 175790966064394649186187005000666202230, nat_lit 48358079623187638274891491146121518585⟩,
  ⟨nat_lit 175790966064394649186187005000666202230, nat_lit 327194802135700960467775803421914497680, nat_lit 48358079623187638274891491146121518585⟩,
  ⟨nat_lit 221844085606926790825739090443349043560, nat_lit 1729415540590885550605091901791386366670, nat_lit 29930802210331334526491714265806876009⟩,
  ⟨nat_lit 1729415540590885550605091901791386366670, nat_lit 221844085606926790825739090443349043560, nat_lit 29930802210331334526491714265806876009⟩,
  ⟨nat_lit 48740373802187658569169007765264589770, nat_lit 1729415540590885550605091901791386366670, nat_lit 29930802210331334526491714265806876009⟩,
  ⟨nat_lit 1729415540590885550605091901791386366670, nat_lit 48740373802187658569169007765264589770, nat_lit 29930802210331334526491714265806876009⟩,
  ⟨nat_lit 48740373802187658569169007765264589770, nat_lit 221844085606926790825739090443349043560, nat_lit 29930802210331334526491714265806876009⟩,
  ⟨nat_lit 221844085606926790825739090443349043560, nat_lit 48740373802187658569169007765264589770, nat_lit 29930802210331334526491714265806876009⟩,
  ⟨nat_lit 616883521784235549316943705082490619440, nat_lit 1247091991107351141631708706372473171660, nat_lit 69282552281696740931973657021836440891⟩,
  ⟨nat_lit 1247091991107351141631708706372473171660, nat_lit 616883521784235549316943705082490619440, nat_lit 69282552281696740931973657021836440891⟩,
  ⟨nat_lit 136024487108413309051347588545036208900, nat_lit 1247091991107351141631708706372473171660, nat_lit 69282552281696740931973657021836440891⟩,
  ⟨nat_lit 1247091991107351141631708706372473171660, nat_lit 136024487108413309051347588545036208900, nat_lit 69282552281696740931973657021836440891⟩,
  ⟨nat_lit 136024487108413309051347588545036208900, nat_lit 616883521784235549316943705082490619440, nat_lit 69282552281696740931973657021836440891⟩,
  ⟨nat_lit 616883521784235549316943705082490619440, nat_lit 136024487108413309051347588545036208900, nat_lit 69282552281696740931973657021836440891⟩,
  ⟨nat_lit 10252778204764737118658806682258211950, nat_lit 1444715586248375930521240264609568097250, nat_lit 19181362007086525445190180332221782772⟩,
  ⟨nat_lit 1444715586248375930521240264609568097250, nat_lit 10252778204764737118658806682258211950, nat_lit 19181362007086525445190180332221782772⟩,
  ⟨nat_lit 545031635546859332360100928708173690800, nat_lit 1444715586248375930521240264609568097250, nat_lit 19181362007086525445190180332221782772⟩,
  ⟨nat_lit 1444715586248375930521240264609568097250, nat_lit 545031635546859332360100928708173690800, nat_lit 19181362007086525445190180332221782772⟩,
  ⟨nat_lit 545031635546859332360100928708173690800, nat_lit 10252778204764737118658806682258211950, nat_lit 19181362007086525445190180332221782772⟩,
  ⟨nat_lit 10252778204764737118658806682258211950, nat_lit 545031635546859332360100928708173690800, nat_lit 19181362007086525445190180332221782772⟩]

theorem tri13_eq : normWV2 tri13 = some tri13N := by decide +kernel
theorem tri13_in : all2In (2 * 10 ^ 39) tri13N = true := by decide +kernel
theorem tri13_ok : all2 (2 * 10 ^ 39) (4 * 10 ^ 39) (10 ^ 38) tri13N 13 = true := by decide +kernel

def tri14N : List Pt2 := [
  ⟨nat_lit 354411064825086873913221380930118152170, nat_lit 1291177870349826252173557238139763695670, nat_lit 84325177473986035076460874648372259691⟩,
  ⟨nat_lit 1291177870349826252173557238139763695670, nat_lit 354411064825086873913221380930118152170, nat_lit 84325177473986035076460874648372259691⟩,
  ⟨nat_lit 354411064825086873913221380930118152170, nat_lit 354411064825086873913221380930118152170, nat_lit 84325177473986035076460874648372259691⟩,
  ⟨nat_lit 835289438680907845018881644371286878220, nat_lit 329421122638184309962236711257426243560, nat_lit 65576707088250701282621957477250686472⟩,
  ⟨nat_lit 329421122638184309962236711257426243560, nat_lit 835289438680907845018881644371286878220, nat_lit 65576707088250701282621957477250686472⟩,
  ⟨nat_lit 835289438680907845018881644371286878220, nat_lit 835289438680907845018881644371286878220, nat_lit 65576707088250701282621957477250686472⟩,
  ⟨nat_lit 123599766181745202534957656873871576770, nat_lit 1752800467636509594930084686252256846470, nat_lit 28867399339553335203419842961306633228⟩,
  ⟨nat_lit 1752800467636509594930084686252256846470, nat_lit 123599766181745202534957656873871576770, nat_lit 28867399339553335203419842961306633228⟩,
  ⟨nat_lit 123599766181745202534957656873871576770, nat_lit 123599766181745202534957656873871576770, nat_lit 28867399339553335203419842961306633228⟩,
  ⟨nat_lit 977927820724357277354752040904780471586, nat_lit 44144358551285445290495918190439056830, nat_lit 43767162738857781281689891926651943066⟩,
  ⟨nat_lit 44144358551285445290495918190439056830, nat_lit 977927820724357277354752040904780471586, nat_lit 43767162738857781281689891926651943066⟩,
  ⟨nat_lit 977927820724357277354752040904780471586, nat_lit 977927820724357277354752040904780471586, nat_lit 43767162738857781281689891926651943066⟩,
  ⟨nat_lit 546955056617677319509888566525397112390, nat_lit 906089886764645360980222866949205775218, nat_lit 103548209014583172629569820332792804830⟩,
  ⟨nat_lit 906089886764645360980222866949205775218, nat_lit 546955056617677319509888566525397112390, nat_lit 103548209014583172629569820332792804830⟩,
  ⟨nat_lit 546955056617677319509888566525397112390, nat_lit 546955056617677319509888566525397112390, nat_lit 103548209014583172629569820332792804830⟩,
  ⟨nat_lit 38781922497402096356500190109059022150, nat_lit 1922436155005195807286999619781881955700, nat_lit 9846807204800163363652047018084309531⟩,
  ⟨nat_lit 1922436155005195807286999619781881955700, nat_lit 38781922497402096356500190109059022150, nat_lit 9846807204800163363652047018084309531⟩,
  ⟨nat_lit 38781922497402096356500190109059022150, nat_lit 38781922497402096356500190109059022150, nat_lit 9846807204800163363652047018084309531⟩,
  ⟨nat_lit 596745764272515505941663036119225457180, nat_lit 1373960335616175674717254308040626119520, nat_lit 28872616227067680992177383998031606893⟩,
  ⟨nat_lit 1373960335616175674717254308040626119520, nat_lit 596745764272515505941663036119225457180, nat_lit 28872616227067680992177383998031606893⟩,
  ⟨nat_lit 29293900111308819341082655840148423310, nat_lit 1373960335616175674717254308040626119520, nat_lit 28872616227067680992177383998031606893⟩,
  ⟨nat_lit 1373960335616175674717254308040626119520, nat_lit 29293900111308819341082655840148423310, nat_lit 28872616227067680992177383998031606893⟩,
  ⟨nat_lit 29293900111308819341082655840148423310, nat_lit 596745764272515505941663036119225457180, nat_lit 28872616227067680992177383998031606893⟩,
  ⟨nat_lit 596745764272515505941663036119225457180, nat_lit 29293900111308819341082655840148423310, nat_lit 28872616227067680992177383998031606893⟩,
  ⟨nat_lit 114249514807295878071354248437829420630, nat_lit 1541217109549992965178066548334855912650, nat_lit 49331506425127347925750490367272456636⟩,
  ⟨nat_lit 1541217109549992965178066548334855912650, nat_lit 114249514807295878071354248437829420630, nat_lit 49331506425127347925750490367272456636⟩,
  ⟨nat_lit 344533375642711156750579203227314666710, nat_lit 1541217109549992965178066548334855912650, nat_lit 49331506425127347925750490367272456636⟩,
  ⟨nat_lit 1541217109549992965178066548334855912650, nat_lit 344533375642711156750579203227314666710, nat_lit 49331506425127347925750490367272456636⟩,
  ⟨nat_lit 344533375642711156750579203227314666710, nat_lit 114249514807295878071354248437829420630, nat_lit 49331506425127347925750490367272456636⟩,
  ⟨nat_lit 114249514807295878071354248437829420630, nat_lit 344533375642711156750579203227314666710, nat_lit 49331506425127347925750490367272456636⟩,
  ⟨nat_lit 673722919592690003488110394177850778120, nat_lit 1140444581693366346995392426724708519280, nat_lit 77143021574121366456978055620821718469⟩,
  ⟨nat_lit 1140444581693366346995392426724708519280, nat_lit 673722919592690003488110394177850778120, nat_lit 77143021574121366456978055620821718469⟩,
  ⟨nat_lit 185832498713943649516497179097440702600, nat_lit 1140444581693366346995392426724708519280, nat_lit 77143021574121366456978055620821718469⟩,
  ⟨nat_lit 1140444581693366346995392426724708519280, nat_lit 185832498713943649516497179097440702600, nat_lit 77143021574121366456978055620821718469⟩,
  ⟨nat_lit 185832498713943649516497179097440702600, nat_lit 673722919592690003488110394177850778120, nat_lit 77143021574121366456978055620821718469⟩,
  ⟨nat_lit 673722919592690003488110394177850778120, nat_lit 185832498713943649516497179097440702600, nat_lit 77143021574121366456978055620821718469⟩,
  ⟨nat_lit 2536661865744050174492802190985385350, nat_lit 1759514342740342259029143273949203652010, nat_lit 10020457677001343539720186164978232925⟩,
  ⟨nat_lit 1759514342740342259029143273949203652010, nat_lit 2536661865744050174492802190985385350, nat_lit 10020457677001343539720186164978232925⟩,
  ⟨nat_lit 237948995393913690796363923859810962650, nat_lit 1759514342740342259029143273949203652010, nat_lit 10020457677001343539720186164978232925⟩,
  ⟨nat_lit 1759514342740342259029143273949203652010, nat_lit 237948995393913690796363923859810962650, nat_lit 10020457677001343539720186164978232925⟩,
  ⟨nat_lit 237948995393913690796363923859810962650, nat_lit 2536661865744050174492802190985385350, nat_lit 10020457677001343539720186164978232925⟩,
  ⟨nat_lit 2536661865744050174492802190985385350, nat_lit 237948995393913690796363923859810962650, nat_lit 10020457677001343539720186164978232925⟩]

theorem tri14_eq : normWV2 tri14 = some tri14N := by decide +kernel
theorem tri14_in : all2In (2 * 10 ^ 39) tri14N = true := by decide +kernel
theorem tri14_ok : all2 (2 * 10 ^ 39) (4 * 10 ^ 39) (10 ^ 38) tri14N 14 = true := by decide +kernel

def tri15N : List Pt2 := [
  ⟨nat_lit 6666666666666666666666666666666666666700, nat_lit 6666666666666666666666666666666666666700, nat_lit 886707747643681507751986813140648079500⟩,
  ⟨nat_lit 8107244282679509557335122214395017179300, nat_lit 3785511434640980885329755571209965641400, nat_lit 854275631429211340827258387456683606960⟩,
  ⟨nat_lit 3785511434640980885329755571209965641400, nat_lit 8107244282679509557335122214395017179300, nat_lit 854275631429211340827258387456683606960⟩,
  ⟨nat_lit 8107244282679509557335122214395017179300, nat_lit 8107244282679509557335122214395017179300, nat_lit 854275631429211340827258387456683606960⟩,
  ⟨nat_lit 1403471057999720349687195042868572092700, nat_lit 17193057884000559300625609914262855814600, nat_lit 328894751252503275373600173770182589200⟩,
  ⟨nat_lit 17193057884000559300625609914262855814600, nat_lit 1403471057999720349687195042868572092700, nat_lit 328894751252503275373600173770182589200⟩,
  ⟨nat_lit 1403471057999720349687195042868572092700, nat_lit 1403471057999720349687195042868572092700, nat_lit 328894751252503275373600173770182589200⟩,
  ⟨nat_lit 9483413628760395839573813905482118117470, nat_lit 1033172742479208320852372189035763765100, nat_lit 347922960015268291154531017685095066580⟩,
  ⟨nat_lit 1033172742479208320852372189035763765100, nat_lit 9483413628760395839573813905482118117470, nat_lit 347922960015268291154531017685095066580⟩,
  ⟨nat_lit 9483413628760395839573813905482118117470, nat_lit 9483413628760395839573813905482118117470, nat_lit 347922960015268291154531017685095066580⟩,
  ⟨nat_lit 4527574268406991965814511621692386054500, nat_lit 10944851463186016068370976756615227890950, nat_lit 935667234574192647125377895615484783740⟩,
  ⟨nat_lit 10944851463186016068370976756615227890950, nat_lit 4527574268406991965814511621692386054500, nat_lit 935667234574192647125377895615484783740⟩,
  ⟨nat_lit 4527574268406991965814511621692386054500, nat_lit 4527574268406991965814511621692386054500, nat_lit 935667234574192647125377895615484783740⟩,
  ⟨nat_lit 9899939135382523684755992953678217178950, nat_lit 200121729234952630488014092643565642100, nat_lit 191476923649201724131385072531871174140⟩,
  ⟨nat_lit 200121729234952630488014092643565642100, nat_lit 9899939135382523684755992953678217178950, nat_lit 191476923649201724131385072531871174140⟩,
  ⟨nat_lit 9899939135382523684755992953678217178950, nat_lit 9899939135382523684755992953678217178950, nat_lit 191476923649201724131385072531871174140⟩,
  ⟨nat_lit 316234525019772911179034675677350603100, nat_lit 19367530949960454177641930648645298793800, nat_lit 59215492758107511385526052767298787739⟩,
  ⟨nat_lit 19367530949960454177641930648645298793800, nat_lit 316234525019772911179034675677350603100, nat_lit 59215492758107511385526052767298787739⟩,
  ⟨nat_lit 316234525019772911179034675677350603100, nat_lit 316234525019772911179034675677350603100, nat_lit 59215492758107511385526052767298787739⟩,
  ⟨nat_lit 367522247713621839220887911627918366000, nat_lit 13339512896037361798926470784074242001400, nat_lit 312051456611519295035498316570008463180⟩,
  ⟨nat_lit 13339512896037361798926470784074242001400, nat_lit 367522247713621839220887911627918366000, nat_lit 312051456611519295035498316570008463180⟩,
  ⟨nat_lit 6292964856249016361852641304297839632600, nat_lit 13339512896037361798926470784074242001400, nat_lit 312051456611519295035498316570008463180⟩,
  ⟨nat_lit 13339512896037361798926470784074242001400, nat_lit 6292964856249016361852641304297839632600, nat_lit 312051456611519295035498316570008463180⟩,
  ⟨nat_lit 6292964856249016361852641304297839632600, nat_lit 367522247713621839220887911627918366000, nat_lit 312051456611519295035498316570008463180⟩,
  ⟨nat_lit 367522247713621839220887911627918366000, nat_lit 6292964856249016361852641304297839632600, nat_lit 312051456611519295035498316570008463180⟩,
  ⟨nat_lit 182784740746167900731036349819730361900, nat_lit 18398243154524721298057211905935847479200, nat_lit 80597067440361992367286698217130156564⟩,
  ⟨nat_lit 18398243154524721298057211905935847479200, nat_lit 182784740746167900731036349819730361900, nat_lit 80597067440361992367286698217130156564⟩,
  ⟨nat_lit 1418972104729110801211751744244422158900, nat_lit 18398243154524721298057211905935847479200, nat_lit 80597067440361992367286698217130156564⟩,
  ⟨nat_lit 18398243154524721298057211905935847479200, nat_lit 1418972104729110801211751744244422158900, nat_lit 80597067440361992367286698217130156564⟩,
  ⟨nat_lit 1418972104729110801211751744244422158900, nat_lit 182784740746167900731036349819730361900, nat_lit 80597067440361992367286698217130156564⟩,
  ⟨nat_lit 182784740746167900731036349819730361900, nat_lit 1418972104729110801211751744244422158900, nat_lit 80597067440361992367286698217130156564⟩,
  ⟨nat_lit 3810711789527878668613804993719282803000, nat_lit 14304447138629014037679587375674608833300, nat_lit 574411738504026804613312833433017120080⟩,
  ⟨nat_lit 14304447138629014037679587375674608833300, nat_lit 3810711789527878668613804993719282803000, nat_lit 574411738504026804613312833433017120080⟩,
  ⟨nat_lit 1884841071843107293706607630606108363700, nat_lit 14304447138629014037679587375674608833300, nat_lit 574411738504026804613312833433017120080⟩,
  ⟨nat_lit 14304447138629014037679587375674608833300, nat_lit 1884841071843107293706607630606108363700, nat_lit 574411738504026804613312833433017120080⟩,
  ⟨nat_lit 1884841071843107293706607630606108363700, nat_lit 3810711789527878668613804993719282803000, nat_lit 574411738504026804613312833433017120080⟩,
  ⟨nat_lit 3810711789527878668613804993719282803000, nat_lit 1884841071843107293706607630606108363700, nat_lit 574411738504026804613312833433017120080⟩,
  ⟨nat_lit 3361372904448287109295551771672589212100, nat_lit 16265852820988385398245166260267159372300, nat_lit 233452423631516906791540110886731718420⟩,
  ⟨nat_lit 16265852820988385398245166260267159372300, nat_lit 3361372904448287109295551771672589212100, nat_lit 233452423631516906791540110886731718420⟩,
  ⟨nat_lit 372774274563327492459281968060251415600, nat_lit 16265852820988385398245166260267159372300, nat_lit 233452423631516906791540110886731718420⟩,
  ⟨nat_lit 16265852820988385398245166260267159372300, nat_lit 372774274563327492459281968060251415600, nat_lit 233452423631516906791540110886731718420⟩,
  ⟨nat_lit 372774274563327492459281968060251415600, nat_lit 3361372904448287109295551771672589212100, nat_lit 233452423631516906791540110886731718420⟩,
  ⟨nat_lit 3361372904448287109295551771672589212100, nat_lit 372774274563327492459281968060251415600, nat_lit 233452423631516906791540110886731718420⟩,
  ⟨nat_lit 6779012229505543784291860093409039641300, nat_lit 11305053297542284289037038687335125750600, nat_lit 626309525699385688234858272123029857660⟩,
  ⟨nat_lit 11305053297542284289037038687335125750600, nat_lit 6779012229505543784291860093409039641300, nat_lit 626309525699385688234858272123029857660⟩,
  ⟨nat_lit 1915934472952171926671101219255834608100, nat_lit 11305053297542284289037038687335125750600, nat_lit 626309525699385688234858272123029857660⟩,
  ⟨nat_lit 11305053297542284289037038687335125750600, nat_lit 1915934472952171926671101219255834608100, nat_lit 626309525699385688234858272123029857660⟩,
  ⟨nat_lit 1915934472952171926671101219255834608100, nat_lit 6779012229505543784291860093409039641300, nat_lit 626309525699385688234858272123029857660⟩,
  ⟨nat_lit 6779012229505543784291860093409039641300, nat_lit 1915934472952171926671101219255834608100, nat_lit 626309525699385688234858272123029857660⟩]

theorem tri15_eq : normWV2 tri15 = some tri15N := by decide +kernel
theorem tri15_in : all2In (2 * 10 ^ 40) tri15N = true := by decide +kernel
theorem tri15_ok : all2 (2 * 10 ^ 40) (4 * 10 ^ 40) (10 ^ 38) tri15N 15 = true := by decide +kernel

def tri16N : List Pt2 := [
  ⟨nat_lit 66666666666666666666666666666666666667000000000000000000000000000000000000000000000000000000000000000000000000000000000000000000000000000000000000, nat_lit 66666666666666666666666666666666666667000000000000000000000000000000000000000000000000000000000000000000000000000000000000000000000000000000000000, nat_lit 9052913214763758579868280475149790587100000000000000000000000000000000000000000000000000000000000000000000000000000000000000000000000000000000000⟩,
  ⟨nat_lit 49198014093428346894343555953416035900000000000000000000000000000000000000000000000000000000000000000000000000000000000000000000000000000000000000, nat_lit 101603971813143306211312888093167928199100000000000000000000000000000000000000000000000000000000000000000000000000000000000000000000000000000000000, nat_lit 8218584628739789908285983774384634985600000000000000000000000000000000000000000000000000000000000000000000000000000000000000000000000000000000000⟩,
  ⟨nat_lit 101603971813143306211312888093167928199100000000000000000000000000000000000000000000000000000000000000000000000000000000000000000000000000000000000, nat_lit 49198014093428346894343555953416035900000000000000000000000000000000000000000000000000000000000000000000000000000000000000000000000000000000000000, nat_lit 8218584628739789908285983774384634985600000000000000000000000000000000000000000000000000000000000000000000000000000000000000000000000000000000000⟩,
  ⟨nat_lit 49198014093428346894343555953416035900000000000000000000000000000000000000000000000000000000000000000000000000000000000000000000000000000000000000, nat_lit 49198014093428346894343555953416035900000000000000000000000000000000000000000000000000000000000000000000000000000000000000000000000000000000000000, nat_lit 8218584628739789908285983774384634985600000000000000000000000000000000000000000000000000000000000000000000000000000000000000000000000000000000000⟩,
  ⟨nat_lit 83116979377084102644196135236802547140000000000000000000000000000000000000000000000000000000000000000000000000000000000000000000000000000000000000, nat_lit 33766041245831794711607729526394905720000000000000000000000000000000000000000000000000000000000000000000000000000000000000000000000000000000000000, nat_lit 8142366662485071850472760460989223143300000000000000000000000000000000000000000000000000000000000000000000000000000000000000000000000000000000000⟩,
  ⟨nat_lit 33766041245831794711607729526394905720000000000000000000000000000000000000000000000000000000000000000000000000000000000000000000000000000000000000, nat_lit 83116979377084102644196135236802547140000000000000000000000000000000000000000000000000000000000000000000000000000000000000000000000000000000000000, nat_lit 8142366662485071850472760460989223143300000000000000000000000000000000000000000000000000000000000000000000000000000000000000000000000000000000000⟩,
  ⟨nat_lit 83116979377084102644196135236802547140000000000000000000000000000000000000000000000000000000000000000000000000000000000000000000000000000000000000, nat_lit 83116979377084102644196135236802547140000000000000000000000000000000000000000000000000000000000000000000000000000000000000000000000000000000000000, nat_lit 8142366662485071850472760460989223143300000000000000000000000000000000000000000000000000000000000000000000000000000000000000000000000000000000000⟩,
  ⟨nat_lit 17071113317340064351064977104273060221000000000000000000000000000000000000000000000000000000000000000000000000000000000000000000000000000000000000, nat_lit 165857773365319871297870045791453879558000000000000000000000000000000000000000000000000000000000000000000000000000000000000000000000000000000000000, nat_lit 2956326938044880796036437520643872674900000000000000000000000000000000000000000000000000000000000000000000000000000000000000000000000000000000000⟩,
  ⟨nat_lit 165857773365319871297870045791453879558000000000000000000000000000000000000000000000000000000000000000000000000000000000000000000000000000000000000, nat_lit 17071113317340064351064977104273060221000000000000000000000000000000000000000000000000000000000000000000000000000000000000000000000000000000000000, nat_lit 2956326938044880796036437520643872674900000000000000000000000000000000000000000000000000000000000000000000000000000000000000000000000000000000000⟩,
  ⟨nat_lit 17071113317340064351064977104273060221000000000000000000000000000000000000000000000000000000000000000000000000000000000000000000000000000000000000, nat_lit 17071113317340064351064977104273060221000000000000000000000000000000000000000000000000000000000000000000000000000000000000000000000000000000000000, nat_lit 2956326938044880796036437520643872674900000000000000000000000000000000000000000000000000000000000000000000000000000000000000000000000000000000000⟩,
  ⟨nat_lit 32383728838254245375376653402468487117000000000000000000000000000000000000000000000000000000000000000000000000000000000000000000000000000000000000, nat_lit 135232542323491509249246693195063025766000000000000000000000000000000000000000000000000000000000000000000000000000000000000000000000000000000000000, nat_lit 5883681939797619572122270444556541151500000000000000000000000000000000000000000000000000000000000000000000000000000000000000000000000000000000000⟩,
  ⟨nat_lit 135232542323491509249246693195063025766000000000000000000000000000000000000000000000000000000000000000000000000000000000000000000000000000000000000, nat_lit 32383728838254245375376653402468487117000000000000000000000000000000000000000000000000000000000000000000000000000000000000000000000000000000000000, nat_lit 5883681939797619572122270444556541151500000000000000000000000000000000000000000000000000000000000000000000000000000000000000000000000000000000000⟩,
  ⟨nat_lit 32383728838254245375376653402468487117000000000000000000000000000000000000000000000000000000000000000000000000000000000000000000000000000000000000, nat_lit 32383728838254245375376653402468487117000000000000000000000000000000000000000000000000000000000000000000000000000000000000000000000000000000000000, nat_lit 5883681939797619572122270444556541151500000000000000000000000000000000000000000000000000000000000000000000000000000000000000000000000000000000000⟩,
  ⟨nat_lit 99999999999999999999999999999999999999999999999999999999999999999999999999999999999999999999999999999999999946184336324567064761249711140097165718, nat_lit 0, nat_lit 883709262430113785076846357830921817140000000000000000000000000000000000000000000000000000000000000000000000000000000000000000000000000000000000⟩,
  ⟨nat_lit 0, nat_lit 99999999999999999999999999999999999999999999999999999999999999999999999999999999999999999999999999999999999946184336324567064761249711140097165718, nat_lit 883709262430113785076846357830921817140000000000000000000000000000000000000000000000000000000000000000000000000000000000000000000000000000000000⟩,
  ⟨nat_lit 99999999999999999999999999999999999999999999999999999999999999999999999999999999999999999999999999999999999946184336324567064761249711140097165718, nat_lit 99999999999999999999999999999999999999999999999999999999999999999999999999999999999999999999999999999999999946184336324567064761249711140097165718, nat_lit 883709262430113785076846357830921817140000000000000000000000000000000000000000000000000000000000000000000000000000000000000000000000000000000000⟩,
  ⟨nat_lit 95056145509188420817651558106902391005400000000000000000000000000000000000000000000000000000000000000000000000000000000000000000000000000000000000, nat_lit 9887708981623158364696883786195217989000000000000000000000000000000000000000000000000000000000000000000000000000000000000000000000000000000000000, nat_lit 5194866659655431664060458369406688097700000000000000000000000000000000000000000000000000000000000000000000000000000000000000000000000000000000000⟩,
  ⟨nat_lit 9887708981623158364696883786195217989000000000000000000000000000000000000000000000000000000000000000000000000000000000000000000000000000000000000, nat_lit 95056145509188420817651558106902391005400000000000000000000000000000000000000000000000000000000000000000000000000000000000000000000000000000000000, nat_lit 5194866659655431664060458369406688097700000000000000000000000000000000000000000000000000000000000000000000000000000000000000000000000000000000000⟩,
  ⟨nat_lit 95056145509188420817651558106902391005400000000000000000000000000000000000000000000000000000000000000000000000000000000000000000000000000000000000, nat_lit 95056145509188420817651558106902391005400000000000000000000000000000000000000000000000000000000000000000000000000000000000000000000000000000000000, nat_lit 5194866659655431664060458369406688097700000000000000000000000000000000000000000000000000000000000000000000000000000000000000000000000000000000000⟩,
  ⟨nat_lit 10951034982940622578344742279316741029000000000000000000000000000000000000000000000000000000000000000000000000000000000000000000000000000000000000, nat_lit 150834012288953561570997807325829055003000000000000000000000000000000000000000000000000000000000000000000000000000000000000000000000000000000000000, nat_lit 3787654492883139793909242761341881802800000000000000000000000000000000000000000000000000000000000000000000000000000000000000000000000000000000000⟩,
  ⟨nat_lit 150834012288953561570997807325829055003000000000000000000000000000000000000000000000000000000000000000000000000000000000000000000000000000000000000, nat_lit 10951034982940622578344742279316741029000000000000000000000000000000000000000000000000000000000000000000000000000000000000000000000000000000000000, nat_lit 3787654492883139793909242761341881802800000000000000000000000000000000000000000000000000000000000000000000000000000000000000000000000000000000000⟩,
  ⟨nat_lit 38214952728105815850657450394854203968000000000000000000000000000000000000000000000000000000000000000000000000000000000000000000000000000000000000, nat_lit 150834012288953561570997807325829055003000000000000000000000000000000000000000000000000000000000000000000000000000000000000000000000000000000000000, nat_lit 3787654492883139793909242761341881802800000000000000000000000000000000000000000000000000000000000000000000000000000000000000000000000000000000000⟩,
  ⟨nat_lit 150834012288953561570997807325829055003000000000000000000000000000000000000000000000000000000000000000000000000000000000000000000000000000000000000, nat_lit 38214952728105815850657450394854203968000000000000000000000000000000000000000000000000000000000000000000000000000000000000000000000000000000000000, nat_lit 3787654492883139793909242761341881802800000000000000000000000000000000000000000000000000000000000000000000000000000000000000000000000000000000000⟩,
  ⟨nat_lit 38214952728105815850657450394854203968000000000000000000000000000000000000000000000000000000000000000000000000000000000000000000000000000000000000, nat_lit 10951034982940622578344742279316741029000000000000000000000000000000000000000000000000000000000000000000000000000000000000000000000000000000000000, nat_lit 3787654492883139793909242761341881802800000000000000000000000000000000000000000000000000000000000000000000000000000000000000000000000000000000000⟩,
  ⟨nat_lit 10951034982940622578344742279316741029000000000000000000000000000000000000000000000000000000000000000000000000000000000000000000000000000000000000, nat_lit 38214952728105815850657450394854203968000000000000000000000000000000000000000000000000000000000000000000000000000000000000000000000000000000000000, nat_lit 3787654492883139793909242761341881802800000000000000000000000000000000000000000000000000000000000000000000000000000000000000000000000000000000000⟩,
  ⟨nat_lit 4640685553762741807497708254320078637000000000000000000000000000000000000000000000000000000000000000000000000000000000000000000000000000000000000, nat_lit 193648873606191735836919518841625197884000000000000000000000000000000000000000000000000000000000000000000000000000000000000000000000000000000000000, nat_lit 330893342967009638479162789620443082290000000000000000000000000000000000000000000000000000000000000000000000000000000000000000000000000000000000⟩,
  ⟨nat_lit 193648873606191735836919518841625197884000000000000000000000000000000000000000000000000000000000000000000000000000000000000000000000000000000000000, nat_lit 4640685553762741807497708254320078637000000000000000000000000000000000000000000000000000000000000000000000000000000000000000000000000000000000000, nat_lit 330893342967009638479162789620443082290000000000000000000000000000000000000000000000000000000000000000000000000000000000000000000000000000000000⟩,
  ⟨nat_lit 1710440840045522355582772904054723479000000000000000000000000000000000000000000000000000000000000000000000000000000000000000000000000000000000000, nat_lit 193648873606191735836919518841625197884000000000000000000000000000000000000000000000000000000000000000000000000000000000000000000000000000000000000, nat_lit 330893342967009638479162789620443082290000000000000000000000000000000000000000000000000000000000000000000000000000000000000000000000000000000000⟩,
  ⟨nat_lit 193648873606191735836919518841625197884000000000000000000000000000000000000000000000000000000000000000000000000000000000000000000000000000000000000, nat_lit 1710440840045522355582772904054723479000000000000000000000000000000000000000000000000000000000000000000000000000000000000000000000000000000000000, nat_lit 330893342967009638479162789620443082290000000000000000000000000000000000000000000000000000000000000000000000000000000000000000000000000000000000⟩,
  ⟨nat_lit 1710440840045522355582772904054723479000000000000000000000000000000000000000000000000000000000000000000000000000000000000000000000000000000000000, nat_lit 4640685553762741807497708254320078637000000000000000000000000000000000000000000000000000000000000000000000000000000000000000000000000000000000000, nat_lit 330893342967009638479162789620443082290000000000000000000000000000000000000000000000000000000000000000000000000000000000000000000000000000000000⟩,
  ⟨nat_lit 4640685553762741807497708254320078637000000000000000000000000000000000000000000000000000000000000000000000000000000000000000000000000000000000000, nat_lit 1710440840045522355582772904054723479000000000000000000000000000000000000000000000000000000000000000000000000000000000000000000000000000000000000, nat_lit 330893342967009638479162789620443082290000000000000000000000000000000000000000000000000000000000000000000000000000000000000000000000000000000000⟩,
  ⟨nat_lit 3786355656081182996343054105477632571000000000000000000000000000000000000000000000000000000000000000000000000000000000000000000000000000000000000, nat_lit 129860739649089281625925299156381596948000000000000000000000000000000000000000000000000000000000000000000000000000000000000000000000000000000000000, nat_lit 3001720356857161216513696452171494994100000000000000000000000000000000000000000000000000000000000000000000000000000000000000000000000000000000000⟩,
  ⟨nat_lit 129860739649089281625925299156381596948000000000000000000000000000000000000000000000000000000000000000000000000000000000000000000000000000000000000, nat_lit 3786355656081182996343054105477632571000000000000000000000000000000000000000000000000000000000000000000000000000000000000000000000000000000000000, nat_lit 3001720356857161216513696452171494994100000000000000000000000000000000000000000000000000000000000000000000000000000000000000000000000000000000000⟩,
  ⟨nat_lit 66352904694829535377731646738140770480000000000000000000000000000000000000000000000000000000000000000000000000000000000000000000000000000000000000, nat_lit 129860739649089281625925299156381596948000000000000000000000000000000000000000000000000000000000000000000000000000000000000000000000000000000000000, nat_lit 3001720356857161216513696452171494994100000000000000000000000000000000000000000000000000000000000000000000000000000000000000000000000000000000000⟩,
  ⟨nat_lit 129860739649089281625925299156381596948000000000000000000000000000000000000000000000000000000000000000000000000000000000000000000000000000000000000, nat_lit 66352904694829535377731646738140770480000000000000000000000000000000000000000000000000000000000000000000000000000000000000000000000000000000000000, nat_lit 3001720356857161216513696452171494994100000000000000000000000000000000000000000000000000000000000000000000000000000000000000000000000000000000000⟩,
  ⟨nat_lit 66352904694829535377731646738140770480000000000000000000000000000000000000000000000000000000000000000000000000000000000000000000000000000000000000, nat_lit 3786355656081182996343054105477632571000000000000000000000000000000000000000000000000000000000000000000000000000000000000000000000000000000000000, nat_lit 3001720356857161216513696452171494994100000000000000000000000000000000000000000000000000000000000000000000000000000000000000000000000000000000000⟩,
  ⟨nat_lit 3786355656081182996343054105477632571000000000000000000000000000000000000000000000000000000000000000000000000000000000000000000000000000000000000, nat_lit 66352904694829535377731646738140770480000000000000000000000000000000000000000000000000000000000000000000000000000000000000000000000000000000000000, nat_lit 3001720356857161216513696452171494994100000000000000000000000000000000000000000000000000000000000000000000000000000000000000000000000000000000000⟩,
  ⟨nat_lit 3806025948739489758187042431496347936000000000000000000000000000000000000000000000000000000000000000000000000000000000000000000000000000000000000, nat_lit 180054740654085925227401383438774365525000000000000000000000000000000000000000000000000000000000000000000000000000000000000000000000000000000000000, nat_lit 1589518786678499762119919621810809351600000000000000000000000000000000000000000000000000000000000000000000000000000000000000000000000000000000000⟩,
  ⟨nat_lit 180054740654085925227401383438774365525000000000000000000000000000000000000000000000000000000000000000000000000000000000000000000000000000000000000, nat_lit 3806025948739489758187042431496347936000000000000000000000000000000000000000000000000000000000000000000000000000000000000000000000000000000000000, nat_lit 1589518786678499762119919621810809351600000000000000000000000000000000000000000000000000000000000000000000000000000000000000000000000000000000000⟩,
  ⟨nat_lit 16139233397174585014411574129729286539000000000000000000000000000000000000000000000000000000000000000000000000000000000000000000000000000000000000, nat_lit 180054740654085925227401383438774365525000000000000000000000000000000000000000000000000000000000000000000000000000000000000000000000000000000000000, nat_lit 1589518786678499762119919621810809351600000000000000000000000000000000000000000000000000000000000000000000000000000000000000000000000000000000000⟩,
  ⟨nat_lit 180054740654085925227401383438774365525000000000000000000000000000000000000000000000000000000000000000000000000000000000000000000000000000000000000, nat_lit 16139233397174585014411574129729286539000000000000000000000000000000000000000000000000000000000000000000000000000000000000000000000000000000000000, nat_lit 1589518786678499762119919621810809351600000000000000000000000000000000000000000000000000000000000000000000000000000000000000000000000000000000000⟩,
  ⟨nat_lit 16139233397174585014411574129729286539000000000000000000000000000000000000000000000000000000000000000000000000000000000000000000000000000000000000, nat_lit 3806025948739489758187042431496347936000000000000000000000000000000000000000000000000000000000000000000000000000000000000000000000000000000000000, nat_lit 1589518786678499762119919621810809351600000000000000000000000000000000000000000000000000000000000000000000000000000000000000000000000000000000000⟩,
  ⟨nat_lit 3806025948739489758187042431496347936000000000000000000000000000000000000000000000000000000000000000000000000000000000000000000000000000000000000, nat_lit 16139233397174585014411574129729286539000000000000000000000000000000000000000000000000000000000000000000000000000000000000000000000000000000000000, nat_lit 1589518786678499762119919621810809351600000000000000000000000000000000000000000000000000000000000000000000000000000000000000000000000000000000000⟩,
  ⟨nat_lit 20521238047879619260344970322914354593000000000000000000000000000000000000000000000000000000000000000000000000000000000000000000000000000000000000, nat_lit 117829768112849583758057340125685564327000000000000000000000000000000000000000000000000000000000000000000000000000000000000000000000000000000000000, nat_lit 6396722015874013756962812328786622948400000000000000000000000000000000000000000000000000000000000000000000000000000000000000000000000000000000000⟩,
  ⟨nat_lit 117829768112849583758057340125685564327000000000000000000000000000000000000000000000000000000000000000000000000000000000000000000000000000000000000, nat_lit 20521238047879619260344970322914354593000000000000000000000000000000000000000000000000000000000000000000000000000000000000000000000000000000000000, nat_lit 6396722015874013756962812328786622948400000000000000000000000000000000000000000000000000000000000000000000000000000000000000000000000000000000000⟩,
  ⟨nat_lit 61648993839270796981597689551400081080000000000000000000000000000000000000000000000000000000000000000000000000000000000000000000000000000000000000, nat_lit 117829768112849583758057340125685564327000000000000000000000000000000000000000000000000000000000000000000000000000000000000000000000000000000000000, nat_lit 6396722015874013756962812328786622948400000000000000000000000000000000000000000000000000000000000000000000000000000000000000000000000000000000000⟩,
  ⟨nat_lit 117829768112849583758057340125685564327000000000000000000000000000000000000000000000000000000000000000000000000000000000000000000000000000000000000, nat_lit 61648993839270796981597689551400081080000000000000000000000000000000000000000000000000000000000000000000000000000000000000000000000000000000000000, nat_lit 6396722015874013756962812328786622948400000000000000000000000000000000000000000000000000000000000000000000000000000000000000000000000000000000000⟩,
  ⟨nat_lit 61648993839270796981597689551400081080000000000000000000000000000000000000000000000000000000000000000000000000000000000000000000000000000000000000, nat_lit 20521238047879619260344970322914354593000000000000000000000000000000000000000000000000000000000000000000000000000000000000000000000000000000000000, nat_lit 6396722015874013756962812328786622948400000000000000000000000000000000000000000000000000000000000000000000000000000000000000000000000000000000000⟩,
  ⟨nat_lit 20521238047879619260344970322914354593000000000000000000000000000000000000000000000000000000000000000000000000000000000000000000000000000000000000, nat_lit 61648993839270796981597689551400081080000000000000000000000000000000000000000000000000000000000000000000000000000000000000000000000000000000000000, nat_lit 6396722015874013756962812328786622948400000000000000000000000000000000000000000000000000000000000000000000000000000000000000000000000000000000000⟩,
  ⟨nat_lit 1187270003364453981496393522131603200000000000000000000000000000000000000000000000000000000000000000000000000000000000000000000000000000000000000, nat_lit 161324373499879128490286065261412937757000000000000000000000000000000000000000000000000000000000000000000000000000000000000000000000000000000000000, nat_lit 1078237423369762280676407503171175121200000000000000000000000000000000000000000000000000000000000000000000000000000000000000000000000000000000000⟩,
  ⟨nat_lit 161324373499879128490286065261412937757000000000000000000000000000000000000000000000000000000000000000000000000000000000000000000000000000000000000, nat_lit 1187270003364453981496393522131603200000000000000000000000000000000000000000000000000000000000000000000000000000000000000000000000000000000000000, nat_lit 1078237423369762280676407503171175121200000000000000000000000000000000000000000000000000000000000000000000000000000000000000000000000000000000000⟩,
  ⟨nat_lit 37488356496756417528217541216455459042000000000000000000000000000000000000000000000000000000000000000000000000000000000000000000000000000000000000, nat_lit 161324373499879128490286065261412937757000000000000000000000000000000000000000000000000000000000000000000000000000000000000000000000000000000000000, nat_lit 1078237423369762280676407503171175121200000000000000000000000000000000000000000000000000000000000000000000000000000000000000000000000000000000000⟩,
  ⟨nat_lit 161324373499879128490286065261412937757000000000000000000000000000000000000000000000000000000000000000000000000000000000000000000000000000000000000, nat_lit 37488356496756417528217541216455459042000000000000000000000000000000000000000000000000000000000000000000000000000000000000000000000000000000000000, nat_lit 1078237423369762280676407503171175121200000000000000000000000000000000000000000000000000000000000000000000000000000000000000000000000000000000000⟩,
  ⟨nat_lit 37488356496756417528217541216455459042000000000000000000000000000000000000000000000000000000000000000000000000000000000000000000000000000000000000, nat_lit 1187270003364453981496393522131603200000000000000000000000000000000000000000000000000000000000000000000000000000000000000000000000000000000000000, nat_lit 1078237423369762280676407503171175121200000000000000000000000000000000000000000000000000000000000000000000000000000000000000000000000000000000000⟩,
  ⟨nat_lit 1187270003364453981496393522131603200000000000000000000000000000000000000000000000000000000000000000000000000000000000000000000000000000000000000, nat_lit 37488356496756417528217541216455459042000000000000000000000000000000000000000000000000000000000000000000000000000000000000000000000000000000000000, nat_lit 1078237423369762280676407503171175121200000000000000000000000000000000000000000000000000000000000000000000000000000000000000000000000000000000000⟩]

theorem tri16_eq : normWV2 tri16 = some tri16N := by decide +kernel
theorem tri16_in : all2In (2 * 10 ^ 146) tri16N = true := by decide +kernel
theorem tri16_ok : all2 (2 * 10 ^ 146) (4 * 10 ^ 146) (10 ^ 38) tri16N 16 = true := by decide +kernel

def tri17N : List Pt2 := [
  ⟨nat_lit 8342068887231984032102458327439992332100, nat_lit 3315862225536031935795083345120015335900, nat_lit 546218530562042150475576951080594846850⟩,
  ⟨nat_lit 3315862225536031935795083345120015335900, nat_lit 8342068887231984032102458327439992332100, nat_lit 546218530562042150475576951080594846850⟩,
  ⟨nat_lit 8342068887231984032102458327439992332100, nat_lit 8342068887231984032102458327439992332100, nat_lit 546218530562042150475576951080594846850⟩,
  ⟨nat_lit 295109833215079068063083586015906018400, nat_lit 19409780333569841863873832827968187963100, nat_lit 55477751552752843092249851846592899136⟩,
  ⟨nat_lit 19409780333569841863873832827968187963100, nat_lit 295109833215079068063083586015906018400, nat_lit 55477751552752843092249851846592899136⟩,
  ⟨nat_lit 295109833215079068063083586015906018400, nat_lit 295109833215079068063083586015906018400, nat_lit 55477751552752843092249851846592899136⟩,
  ⟨nat_lit 9311957432377806037917831816938754574840, nat_lit 1376085135244387924164336366122490850300, nat_lit 500389019009947155941150603527654545350⟩,
  ⟨nat_lit 1376085135244387924164336366122490850300, nat_lit 9311957432377806037917831816938754574840, nat_lit 500389019009947155941150603527654545350⟩,
  ⟨nat_lit 9311957432377806037917831816938754574840, nat_lit 9311957432377806037917831816938754574840, nat_lit 500389019009947155941150603527654545350⟩,
  ⟨nat_lit 3607162325327412403716861444587608778700, nat_lit 12785675349345175192566277110824782442700, nat_lit 526252611760359699120688303471593054570⟩,
  ⟨nat_lit 12785675349345175192566277110824782442700, nat_lit 3607162325327412403716861444587608778700, nat_lit 526252611760359699120688303471593054570⟩,
  ⟨nat_lit 3607162325327412403716861444587608778700, nat_lit 3607162325327412403716861444587608778700, nat_lit 526252611760359699120688303471593054570⟩,
  ⟨nat_lit 1333081269591938595135334967969976939900, nat_lit 17333837460816122809729330064060046120200, nat_lit 249180016046108841905000857308273670330⟩,
  ⟨nat_lit 17333837460816122809729330064060046120200, nat_lit 1333081269591938595135334967969976939900, nat_lit 249180016046108841905000857308273670330⟩,
  ⟨nat_lit 1333081269591938595135334967969976939900, nat_lit 1333081269591938595135334967969976939900, nat_lit 249180016046108841905000857308273670330⟩,
  ⟨nat_lit 5714130048731732560036757574893840417900, nat_lit 8571739902536534879926484850212319164200, nat_lit 754324743055905600328576119359104595170⟩,
  ⟨nat_lit 8571739902536534879926484850212319164200, nat_lit 5714130048731732560036757574893840417900, nat_lit 754324743055905600328576119359104595170⟩,
  ⟨nat_lit 5714130048731732560036757574893840417900, nat_lit 5714130048731732560036757574893840417900, nat_lit 754324743055905600328576119359104595170⟩,
  ⟨nat_lit 320352847242385936848146242665295730700, nat_lit 16495801403301760488685812163616402457000, nat_lit 159566004118591866485652442901310498090⟩,
  ⟨nat_lit 16495801403301760488685812163616402457000, nat_lit 320352847242385936848146242665295730700, nat_lit 159566004118591866485652442901310498090⟩,
  ⟨nat_lit 3183845749455853574466041593718301812200, nat_lit 16495801403301760488685812163616402457000, nat_lit 159566004118591866485652442901310498090⟩,
  ⟨nat_lit 16495801403301760488685812163616402457000, nat_lit 3183845749455853574466041593718301812200, nat_lit 159566004118591866485652442901310498090⟩,
  ⟨nat_lit 3183845749455853574466041593718301812200, nat_lit 320352847242385936848146242665295730700, nat_lit 159566004118591866485652442901310498090⟩,
  ⟨nat_lit 320352847242385936848146242665295730700, nat_lit 3183845749455853574466041593718301812200, nat_lit 159566004118591866485652442901310498090⟩,
  ⟨nat_lit 6125631834923730830706189877097467451500, nat_lit 12527380607729045241374446055956246503700, nat_lit 449755450933821328846443115603380059540⟩,
  ⟨nat_lit 12527380607729045241374446055956246503700, nat_lit 6125631834923730830706189877097467451500, nat_lit 449755450933821328846443115603380059540⟩,
  ⟨nat_lit 1346987557347223927919364066946286044800, nat_lit 12527380607729045241374446055956246503700, nat_lit 449755450933821328846443115603380059540⟩,
  ⟨nat_lit 12527380607729045241374446055956246503700, nat_lit 1346987557347223927919364066946286044800, nat_lit 449755450933821328846443115603380059540⟩,
  ⟨nat_lit 1346987557347223927919364066946286044800, nat_lit 6125631834923730830706189877097467451500, nat_lit 449755450933821328846443115603380059540⟩,
  ⟨nat_lit 6125631834923730830706189877097467451500, nat_lit 1346987557347223927919364066946286044800, nat_lit 449755450933821328846443115603380059540⟩,
  ⟨nat_lit 264593455201737866140334266982111739400, nat_lit 11425897358893681037012982233919171948400, nat_lit 207968799116790729272571307561765479790⟩,
  ⟨nat_lit 11425897358893681037012982233919171948400, nat_lit 264593455201737866140334266982111739400, nat_lit 207968799116790729272571307561765479790⟩,
  ⟨nat_lit 8309509185904581096846683499098716312200, nat_lit 11425897358893681037012982233919171948400, nat_lit 207968799116790729272571307561765479790⟩,
  ⟨nat_lit 11425897358893681037012982233919171948400, nat_lit 8309509185904581096846683499098716312200, nat_lit 207968799116790729272571307561765479790⟩,
  ⟨nat_lit 8309509185904581096846683499098716312200, nat_lit 264593455201737866140334266982111739400, nat_lit 207968799116790729272571307561765479790⟩,
  ⟨nat_lit 264593455201737866140334266982111739400, nat_lit 8309509185904581096846683499098716312200, nat_lit 207968799116790729272571307561765479790⟩,
  ⟨nat_lit 1560846811365648483426617410386262302200, nat_lit 15064702918729162377928547982287197986900, nat_lit 411157966409090349920116591628438482610⟩,
  ⟨nat_lit 15064702918729162377928547982287197986900, nat_lit 1560846811365648483426617410386262302200, nat_lit 411157966409090349920116591628438482610⟩,
  ⟨nat_lit 3374450269905189138644834607326539710900, nat_lit 15064702918729162377928547982287197986900, nat_lit 411157966409090349920116591628438482610⟩,
  ⟨nat_lit 15064702918729162377928547982287197986900, nat_lit 3374450269905189138644834607326539710900, nat_lit 411157966409090349920116591628438482610⟩,
  ⟨nat_lit 3374450269905189138644834607326539710900, nat_lit 1560846811365648483426617410386262302200, nat_lit 411157966409090349920116591628438482610⟩,
  ⟨nat_lit 1560846811365648483426617410386262302200, nat_lit 3374450269905189138644834607326539710900, nat_lit 411157966409090349920116591628438482610⟩,
  ⟨nat_lit 262717416680053899332072788599393453000, nat_lit 14301445182212849230318492407527260439900, nat_lit 173844290020023831375478508809914732890⟩,
  ⟨nat_lit 14301445182212849230318492407527260439900, nat_lit 262717416680053899332072788599393453000, nat_lit 173844290020023831375478508809914732890⟩,
  ⟨nat_lit 5435837401107096870349434803873346107100, nat_lit 14301445182212849230318492407527260439900, nat_lit 173844290020023831375478508809914732890⟩,
  ⟨nat_lit 14301445182212849230318492407527260439900, nat_lit 5435837401107096870349434803873346107100, nat_lit 173844290020023831375478508809914732890⟩,
  ⟨nat_lit 5435837401107096870349434803873346107100, nat_lit 262717416680053899332072788599393453000, nat_lit 173844290020023831375478508809914732890⟩,
  ⟨nat_lit 262717416680053899332072788599393453000, nat_lit 5435837401107096870349434803873346107100, nat_lit 173844290020023831375478508809914732890⟩,
  ⟨nat_lit 231503518063612306960842368032289178000, nat_lit 18318387065956339167548644782782866792400, nat_lit 91686968034717336858992147415592016162⟩,
  ⟨nat_lit 18318387065956339167548644782782866792400, nat_lit 231503518063612306960842368032289178000, nat_lit 91686968034717336858992147415592016162⟩,
  ⟨nat_lit 1450109415980048525490512849184844029600, nat_lit 18318387065956339167548644782782866792400, nat_lit 91686968034717336858992147415592016162⟩,
  ⟨nat_lit 18318387065956339167548644782782866792400, nat_lit 1450109415980048525490512849184844029600, nat_lit 91686968034717336858992147415592016162⟩,
  ⟨nat_lit 1450109415980048525490512849184844029600, nat_lit 231503518063612306960842368032289178000, nat_lit 91686968034717336858992147415592016162⟩,
  ⟨nat_lit 231503518063612306960842368032289178000, nat_lit 1450109415980048525490512849184844029600, nat_lit 91686968034717336858992147415592016162⟩,
  ⟨nat_lit 3150109558537398100552218310474014286500, nat_lit 10865511591923195482092967993804846675750, nat_lit 523432518706739745142457876116025258560⟩,
  ⟨nat_lit 10865511591923195482092967993804846675750, nat_lit 3150109558537398100552218310474014286500, nat_lit 523432518706739745142457876116025258560⟩,
  ⟨nat_lit 5984378849539406417354813695721139037800, nat_lit 10865511591923195482092967993804846675750, nat_lit 523432518706739745142457876116025258560⟩,
  ⟨nat_lit 10865511591923195482092967993804846675750, nat_lit 5984378849539406417354813695721139037800, nat_lit 523432518706739745142457876116025258560⟩,
  ⟨nat_lit 5984378849539406417354813695721139037800, nat_lit 3150109558537398100552218310474014286500, nat_lit 523432518706739745142457876116025258560⟩,
  ⟨nat_lit 3150109558537398100552218310474014286500, nat_lit 5984378849539406417354813695721139037800, nat_lit 523432518706739745142457876116025258560⟩]

theorem tri17_eq : normWV2 tri17 = some tri17N := by decide +kernel
theorem tri17_in : all2In (2 * 10 ^ 40) tri17N = true := by decide +kernel
theorem tri17_ok : all2 (2 * 10 ^ 40) (4 * 10 ^ 40) (10 ^ 38) tri17N 17 = true := by decide +kernel

def tri18N : List Pt2 := [
  ⟨nat_lit 6666666666666666666666666666666666666700, nat_lit 6666666666666666666666666666666666666700, nat_lit 727114706028533323359884029761513204160⟩,
  ⟨nat_lit 7999112561351524633607322435396127765300, nat_lit 4001774877296950732785355129207744469500, nat_lit 666089400667802705708310205132498774370⟩,
  ⟨nat_lit 4001774877296950732785355129207744469500, nat_lit 7999112561351524633607322435396127765300, nat_lit 666089400667802705708310205132498774370⟩,
  ⟨nat_lit 7999112561351524633607322435396127765300, nat_lit 7999112561351524633607322435396127765300, nat_lit 666089400667802705708310205132498774370⟩,
  ⟨nat_lit 9751606031497391246263710654002064553430, nat_lit 496787937005217507472578691995870893100, nat_lit 240932952679994202368535813068038693780⟩,
  ⟨nat_lit 496787937005217507472578691995870893100, nat_lit 9751606031497391246263710654002064553430, nat_lit 240932952679994202368535813068038693780⟩,
  ⟨nat_lit 9751606031497391246263710654002064553430, nat_lit 9751606031497391246263710654002064553430, nat_lit 240932952679994202368535813068038693780⟩,
  ⟨nat_lit 9236190128128984627374258755836741357570, nat_lit 1527619743742030745251482488326517284900, nat_lit 378983430135577320521847245035827608190⟩,
  ⟨nat_lit 1527619743742030745251482488326517284900, nat_lit 9236190128128984627374258755836741357570, nat_lit 378983430135577320521847245035827608190⟩,
  ⟨nat_lit 9236190128128984627374258755836741357570, nat_lit 9236190128128984627374258755836741357570, nat_lit 378983430135577320521847245035827608190⟩,
  ⟨nat_lit 4845294050285439244098784665942789512200, nat_lit 10309411899429121511802430668114420975650, nat_lit 729501788178872740682892959172946904310⟩,
  ⟨nat_lit 10309411899429121511802430668114420975650, nat_lit 4845294050285439244098784665942789512200, nat_lit 729501788178872740682892959172946904310⟩,
  ⟨nat_lit 4845294050285439244098784665942789512200, nat_lit 4845294050285439244098784665942789512200, nat_lit 729501788178872740682892959172946904310⟩,
  ⟨nat_lit 776605121773711894204416405982617911800, nat_lit 18446789756452576211591167188034764176400, nat_lit 142586520394379413555283096109389910630⟩,
  ⟨nat_lit 18446789756452576211591167188034764176400, nat_lit 776605121773711894204416405982617911800, nat_lit 142586520394379413555283096109389910630⟩,
  ⟨nat_lit 776605121773711894204416405982617911800, nat_lit 776605121773711894204416405982617911800, nat_lit 142586520394379413555283096109389910630⟩,
  ⟨nat_lit 1838954842432863934717687890033630691200, nat_lit 16322090315134272130564624219932738617700, nat_lit 331183199040064983361161119792618193830⟩,
  ⟨nat_lit 16322090315134272130564624219932738617700, nat_lit 1838954842432863934717687890033630691200, nat_lit 331183199040064983361161119792618193830⟩,
  ⟨nat_lit 1838954842432863934717687890033630691200, nat_lit 1838954842432863934717687890033630691200, nat_lit 331183199040064983361161119792618193830⟩,
  ⟨nat_lit 916098317197215622571841850119154790900, nat_lit 15407447524293504264586199150116842454800, nat_lit 275192324698844104758390464183697733900⟩,
  ⟨nat_lit 15407447524293504264586199150116842454800, nat_lit 916098317197215622571841850119154790900, nat_lit 275192324698844104758390464183697733900⟩,
  ⟨nat_lit 3676454158509280112841958999764002754300, nat_lit 15407447524293504264586199150116842454800, nat_lit 275192324698844104758390464183697733900⟩,
  ⟨nat_lit 15407447524293504264586199150116842454800, nat_lit 3676454158509280112841958999764002754300, nat_lit 275192324698844104758390464183697733900⟩,
  ⟨nat_lit 3676454158509280112841958999764002754300, nat_lit 916098317197215622571841850119154790900, nat_lit 275192324698844104758390464183697733900⟩,
  ⟨nat_lit 916098317197215622571841850119154790900, nat_lit 3676454158509280112841958999764002754300, nat_lit 275192324698844104758390464183697733900⟩,
  ⟨nat_lit 4126985148676758668386903703511548502200, nat_lit 13419079703884690263223113955340021876000, nat_lit 475638218003056599031833942231759545680⟩,
  ⟨nat_lit 13419079703884690263223113955340021876000, nat_lit 4126985148676758668386903703511548502200, nat_lit 475638218003056599031833942231759545680⟩,
  ⟨nat_lit 2453935147438551068389982341148429621800, nat_lit 13419079703884690263223113955340021876000, nat_lit 475638218003056599031833942231759545680⟩,
  ⟨nat_lit 13419079703884690263223113955340021876000, nat_lit 2453935147438551068389982341148429621800, nat_lit 475638218003056599031833942231759545680⟩,
  ⟨nat_lit 2453935147438551068389982341148429621800, nat_lit 4126985148676758668386903703511548502200, nat_lit 475638218003056599031833942231759545680⟩,
  ⟨nat_lit 4126985148676758668386903703511548502200, nat_lit 2453935147438551068389982341148429621800, nat_lit 475638218003056599031833942231759545680⟩,
  ⟨nat_lit 77952220669467650738433826856213240400, nat_lit 12008379092685138295317259362408018946300, nat_lit 90610690045141307984091089591295584041⟩,
  ⟨nat_lit 12008379092685138295317259362408018946300, nat_lit 77952220669467650738433826856213240400, nat_lit 90610690045141307984091089591295584041⟩,
  ⟨nat_lit 7913668686645394053944306810735767813300, nat_lit 12008379092685138295317259362408018946300, nat_lit 90610690045141307984091089591295584041⟩,
  ⟨nat_lit 12008379092685138295317259362408018946300, nat_lit 7913668686645394053944306810735767813300, nat_lit 90610690045141307984091089591295584041⟩,
  ⟨nat_lit 7913668686645394053944306810735767813300, nat_lit 77952220669467650738433826856213240400, nat_lit 90610690045141307984091089591295584041⟩,
  ⟨nat_lit 77952220669467650738433826856213240400, nat_lit 7913668686645394053944306810735767813300, nat_lit 90610690045141307984091089591295584041⟩,
  ⟨nat_lit 269240334828899784287202101925765005600, nat_lit 17566843789350434355117007033556566479000, nat_lit 136802202392143629804555160766495752260⟩,
  ⟨nat_lit 17566843789350434355117007033556566479000, nat_lit 269240334828899784287202101925765005600, nat_lit 136802202392143629804555160766495752260⟩,
  ⟨nat_lit 2163915875820665860595790864517668515300, nat_lit 17566843789350434355117007033556566479000, nat_lit 136802202392143629804555160766495752260⟩,
  ⟨nat_lit 17566843789350434355117007033556566479000, nat_lit 2163915875820665860595790864517668515300, nat_lit 136802202392143629804555160766495752260⟩,
  ⟨nat_lit 2163915875820665860595790864517668515300, nat_lit 269240334828899784287202101925765005600, nat_lit 136802202392143629804555160766495752260⟩,
  ⟨nat_lit 269240334828899784287202101925765005600, nat_lit 2163915875820665860595790864517668515300, nat_lit 136802202392143629804555160766495752260⟩,
  ⟨nat_lit 805205669398161262887672048050914878500, nat_lit 12799761840094291898220925866763795523300, nat_lit 354949782040408102327899244616909673460⟩,
  ⟨nat_lit 12799761840094291898220925866763795523300, nat_lit 805205669398161262887672048050914878500, nat_lit 354949782040408102327899244616909673460⟩,
  ⟨nat_lit 6395032490507546838891402085185289598200, nat_lit 12799761840094291898220925866763795523300, nat_lit 354949782040408102327899244616909673460⟩,
  ⟨nat_lit 12799761840094291898220925866763795523300, nat_lit 6395032490507546838891402085185289598200, nat_lit 354949782040408102327899244616909673460⟩,
  ⟨nat_lit 6395032490507546838891402085185289598200, nat_lit 805205669398161262887672048050914878500, nat_lit 354949782040408102327899244616909673460⟩,
  ⟨nat_lit 805205669398161262887672048050914878500, nat_lit 6395032490507546838891402085185289598200, nat_lit 354949782040408102327899244616909673460⟩,
  ⟨nat_lit 105966703732195306015742017924705872100, nat_lit 15178589597103969880902989076687225194200, nat_lit 100213217491594434077412713938820529560⟩,
  ⟨nat_lit 15178589597103969880902989076687225194200, nat_lit 105966703732195306015742017924705872100, nat_lit 100213217491594434077412713938820529560⟩,
  ⟨nat_lit 4715443699163834813081268905388068933600, nat_lit 15178589597103969880902989076687225194200, nat_lit 100213217491594434077412713938820529560⟩,
  ⟨nat_lit 15178589597103969880902989076687225194200, nat_lit 4715443699163834813081268905388068933600, nat_lit 100213217491594434077412713938820529560⟩,
  ⟨nat_lit 4715443699163834813081268905388068933600, nat_lit 105966703732195306015742017924705872100, nat_lit 100213217491594434077412713938820529560⟩,
  ⟨nat_lit 105966703732195306015742017924705872100, nat_lit 4715443699163834813081268905388068933600, nat_lit 100213217491594434077412713938820529560⟩,
  ⟨nat_lit 10967200840846379848360195493739866600, nat_lit 19447214579255913335635972601163455355400, nat_lit 24458962539221795584360481949957423674⟩,
  ⟨nat_lit 19447214579255913335635972601163455355400, nat_lit 10967200840846379848360195493739866600, nat_lit 24458962539221795584360481949957423674⟩,
  ⟨nat_lit 541818219903240284515667203342804778000, nat_lit 19447214579255913335635972601163455355400, nat_lit 24458962539221795584360481949957423674⟩,
  ⟨nat_lit 19447214579255913335635972601163455355400, nat_lit 541818219903240284515667203342804778000, nat_lit 24458962539221795584360481949957423674⟩,
  ⟨nat_lit 541818219903240284515667203342804778000, nat_lit 10967200840846379848360195493739866600, nat_lit 24458962539221795584360481949957423674⟩,
  ⟨nat_lit 10967200840846379848360195493739866600, nat_lit 541818219903240284515667203342804778000, nat_lit 24458962539221795584360481949957423674⟩,
  ⟨nat_lit 2411753903278492863535701064212875058600, nat_lit 10918375507723891996173880421518543327850, nat_lit 509643506236488789439127678605151514180⟩,
  ⟨nat_lit 10918375507723891996173880421518543327850, nat_lit 2411753903278492863535701064212875058600, nat_lit 509643506236488789439127678605151514180⟩,
  ⟨nat_lit 6669870588997615140290418514268581613500, nat_lit 10918375507723891996173880421518543327850, nat_lit 509643506236488789439127678605151514180⟩,
  ⟨nat_lit 10918375507723891996173880421518543327850, nat_lit 6669870588997615140290418514268581613500, nat_lit 509643506236488789439127678605151514180⟩,
  ⟨nat_lit 6669870588997615140290418514268581613500, nat_lit 2411753903278492863535701064212875058600, nat_lit 509643506236488789439127678605151514180⟩,
  ⟨nat_lit 2411753903278492863535701064212875058600, nat_lit 6669870588997615140290418514268581613500, nat_lit 509643506236488789439127678605151514180⟩]

theorem tri18_eq : normWV2 tri18 = some tri18N := by decide +kernel
theorem tri18_in : all2In (2 * 10 ^ 40) tri18N = true := by decide +kernel
theorem tri18_ok : all2 (2 * 10 ^ 40) (4 * 10 ^ 40) (10 ^ 38) tri18N 18 = true := by decide +kernel

def tri19N : List Pt2 := [
  ⟨nat_lit 6666666666666666666666666666666666666700, nat_lit 6666666666666666666666666666666666666700, nat_lit 689387954080246698120264169137141500210⟩,
  ⟨nat_lit 1050477807024179340295130120448733770700, nat_lit 17899044385951641319409739759102532458500, nat_lit 142185131955962610754381949443812225180⟩,
  ⟨nat_lit 17899044385951641319409739759102532458500, nat_lit 1050477807024179340295130120448733770700, nat_lit 142185131955962610754381949443812225180⟩,
  ⟨nat_lit 1050477807024179340295130120448733770700, nat_lit 1050477807024179340295130120448733770700, nat_lit 142185131955962610754381949443812225180⟩,
  ⟨nat_lit 9850253500826737389937953271792494756320, nat_lit 299492998346525220124093456415010487400, nat_lit 206435102858885633793752715112996957680⟩,
  ⟨nat_lit 299492998346525220124093456415010487400, nat_lit 9850253500826737389937953271792494756320, nat_lit 206435102858885633793752715112996957680⟩,
  ⟨nat_lit 9850253500826737389937953271792494756320, nat_lit 9850253500826737389937953271792494756320, nat_lit 206435102858885633793752715112996957680⟩,
  ⟨nat_lit 2228977466460427529054105914094286497600, nat_lit 15542045067079144941891788171811427004800, nat_lit 304687021860365991624316179706153645180⟩,
  ⟨nat_lit 15542045067079144941891788171811427004800, nat_lit 2228977466460427529054105914094286497600, nat_lit 304687021860365991624316179706153645180⟩,
  ⟨nat_lit 2228977466460427529054105914094286497600, nat_lit 2228977466460427529054105914094286497600, nat_lit 304687021860365991624316179706153645180⟩,
  ⟨nat_lit 9183884020790873149403878579016259559200, nat_lit 1632231958418253701192242841967480881600, nat_lit 459671800534832124606203375455940401280⟩,
  ⟨nat_lit 1632231958418253701192242841967480881600, nat_lit 9183884020790873149403878579016259559200, nat_lit 459671800534832124606203375455940401280⟩,
  ⟨nat_lit 9183884020790873149403878579016259559200, nat_lit 9183884020790873149403878579016259559200, nat_lit 459671800534832124606203375455940401280⟩,
  ⟨nat_lit 8079394451038023932160750170723590691600, nat_lit 3841211097923952135678499658552818616900, nat_lit 630750697863099501530503897632872298580⟩,
  ⟨nat_lit 3841211097923952135678499658552818616900, nat_lit 8079394451038023932160750170723590691600, nat_lit 630750697863099501530503897632872298580⟩,
  ⟨nat_lit 8079394451038023932160750170723590691600, nat_lit 8079394451038023932160750170723590691600, nat_lit 630750697863099501530503897632872298580⟩,
  ⟨nat_lit 3563402095635286216855436820014595720100, nat_lit 12873195808729427566289126359970808559800, nat_lit 493038296963817065810271603280873315700⟩,
  ⟨nat_lit 12873195808729427566289126359970808559800, nat_lit 3563402095635286216855436820014595720100, nat_lit 493038296963817065810271603280873315700⟩,
  ⟨nat_lit 3563402095635286216855436820014595720100, nat_lit 3563402095635286216855436820014595720100, nat_lit 493038296963817065810271603280873315700⟩,
  ⟨nat_lit 232789223675788938419733998892547635100, nat_lit 19534421552648422123160532002214904729700, nat_lit 35306455528856953194485177898948363749⟩,
  ⟨nat_lit 19534421552648422123160532002214904729700, nat_lit 232789223675788938419733998892547635100, nat_lit 35306455528856953194485177898948363749⟩,
  ⟨nat_lit 232789223675788938419733998892547635100, nat_lit 232789223675788938419733998892547635100, nat_lit 35306455528856953194485177898948363749⟩,
  ⟨nat_lit 5103232658272153950174988980420865972100, nat_lit 9793534683455692099650022039158268055760, nat_lit 635060387320061539418974449993407250610⟩,
  ⟨nat_lit 9793534683455692099650022039158268055760, nat_lit 5103232658272153950174988980420865972100, nat_lit 635060387320061539418974449993407250610⟩,
  ⟨nat_lit 5103232658272153950174988980420865972100, nat_lit 5103232658272153950174988980420865972100, nat_lit 635060387320061539418974449993407250610⟩,
  ⟨nat_lit 2613953525360648091392178846942552647900, nat_lit 16603129288005507482114383730999627094000, nat_lit 193909689737100915978594664571338825810⟩,
  ⟨nat_lit 16603129288005507482114383730999627094000, nat_lit 2613953525360648091392178846942552647900, nat_lit 193909689737100915978594664571338825810⟩,
  ⟨nat_lit 782917186633844426493437422057820258100, nat_lit 16603129288005507482114383730999627094000, nat_lit 193909689737100915978594664571338825810⟩,
  ⟨nat_lit 16603129288005507482114383730999627094000, nat_lit 782917186633844426493437422057820258100, nat_lit 193909689737100915978594664571338825810⟩,
  ⟨nat_lit 782917186633844426493437422057820258100, nat_lit 2613953525360648091392178846942552647900, nat_lit 193909689737100915978594664571338825810⟩,
  ⟨nat_lit 2613953525360648091392178846942552647900, nat_lit 782917186633844426493437422057820258100, nat_lit 193909689737100915978594664571338825810⟩,
  ⟨nat_lit 6226352596190825055502612995739691077500, nat_lit 11187396114406018283177075967130279684200, nat_lit 526926439547814663703629976900645963620⟩,
  ⟨nat_lit 11187396114406018283177075967130279684200, nat_lit 6226352596190825055502612995739691077500, nat_lit 526926439547814663703629976900645963620⟩,
  ⟨nat_lit 2586251289403156661320311037130029238300, nat_lit 11187396114406018283177075967130279684200, nat_lit 526926439547814663703629976900645963620⟩,
  ⟨nat_lit 11187396114406018283177075967130279684200, nat_lit 2586251289403156661320311037130029238300, nat_lit 526926439547814663703629976900645963620⟩,
  ⟨nat_lit 2586251289403156661320311037130029238300, nat_lit 6226352596190825055502612995739691077500, nat_lit 526926439547814663703629976900645963620⟩,
  ⟨nat_lit 6226352596190825055502612995739691077500, nat_lit 2586251289403156661320311037130029238300, nat_lit 526926439547814663703629976900645963620⟩,
  ⟨nat_lit 41378517932096152202114037188109579300, nat_lit 12666265862575682660937353179820011382500, nat_lit 65641531036716385118906834623328599920⟩,
  ⟨nat_lit 12666265862575682660937353179820011382500, nat_lit 41378517932096152202114037188109579300, nat_lit 65641531036716385118906834623328599920⟩,
  ⟨nat_lit 7292355619492221186860532782991879038200, nat_lit 12666265862575682660937353179820011382500, nat_lit 65641531036716385118906834623328599920⟩,
  ⟨nat_lit 12666265862575682660937353179820011382500, nat_lit 7292355619492221186860532782991879038200, nat_lit 65641531036716385118906834623328599920⟩,
  ⟨nat_lit 7292355619492221186860532782991879038200, nat_lit 41378517932096152202114037188109579300, nat_lit 65641531036716385118906834623328599920⟩,
  ⟨nat_lit 41378517932096152202114037188109579300, nat_lit 7292355619492221186860532782991879038200, nat_lit 65641531036716385118906834623328599920⟩,
  ⟨nat_lit 1491205892032533570741302508253035681400, nat_lit 14080096399320842197617583815633184537400, nat_lit 362158898624249001293051273971333992590⟩,
  ⟨nat_lit 14080096399320842197617583815633184537400, nat_lit 1491205892032533570741302508253035681400, nat_lit 362158898624249001293051273971333992590⟩,
  ⟨nat_lit 4428697708646624231641113676113779781200, nat_lit 14080096399320842197617583815633184537400, nat_lit 362158898624249001293051273971333992590⟩,
  ⟨nat_lit 14080096399320842197617583815633184537400, nat_lit 4428697708646624231641113676113779781200, nat_lit 362158898624249001293051273971333992590⟩,
  ⟨nat_lit 4428697708646624231641113676113779781200, nat_lit 1491205892032533570741302508253035681400, nat_lit 362158898624249001293051273971333992590⟩,
  ⟨nat_lit 1491205892032533570741302508253035681400, nat_lit 4428697708646624231641113676113779781200, nat_lit 362158898624249001293051273971333992590⟩,
  ⟨nat_lit 100145765147089822669821887651657786400, nat_lit 17051339087537783993565066303480098615400, nat_lit 58526302069404008122936576981139743993⟩,
  ⟨nat_lit 17051339087537783993565066303480098615400, nat_lit 100145765147089822669821887651657786400, nat_lit 58526302069404008122936576981139743993⟩,
  ⟨nat_lit 2848515147315126183765111808868243598300, nat_lit 17051339087537783993565066303480098615400, nat_lit 58526302069404008122936576981139743993⟩,
  ⟨nat_lit 17051339087537783993565066303480098615400, nat_lit 2848515147315126183765111808868243598300, nat_lit 58526302069404008122936576981139743993⟩,
  ⟨nat_lit 2848515147315126183765111808868243598300, nat_lit 100145765147089822669821887651657786400, nat_lit 58526302069404008122936576981139743993⟩,
  ⟨nat_lit 100145765147089822669821887651657786400, nat_lit 2848515147315126183765111808868243598300, nat_lit 58526302069404008122936576981139743993⟩,
  ⟨nat_lit 817760223920337522782557910575892325900, nat_lit 12101679581374159282256988383778649147800, nat_lit 322043255280482164199840269652875822190⟩,
  ⟨nat_lit 12101679581374159282256988383778649147800, nat_lit 817760223920337522782557910575892325900, nat_lit 322043255280482164199840269652875822190⟩,
  ⟨nat_lit 7080560194705503194960453705645458526200, nat_lit 12101679581374159282256988383778649147800, nat_lit 322043255280482164199840269652875822190⟩,
  ⟨nat_lit 12101679581374159282256988383778649147800, nat_lit 7080560194705503194960453705645458526200, nat_lit 322043255280482164199840269652875822190⟩,
  ⟨nat_lit 7080560194705503194960453705645458526200, nat_lit 817760223920337522782557910575892325900, nat_lit 322043255280482164199840269652875822190⟩,
  ⟨nat_lit 817760223920337522782557910575892325900, nat_lit 7080560194705503194960453705645458526200, nat_lit 322043255280482164199840269652875822190⟩,
  ⟨nat_lit 4837891579211591371560579943862827646600, nat_lit 14863627379148727194931412334629960126200, nat_lit 169117749990729936350421409071818871120⟩,
  ⟨nat_lit 14863627379148727194931412334629960126200, nat_lit 4837891579211591371560579943862827646600, nat_lit 169117749990729936350421409071818871120⟩,
  ⟨nat_lit 298481041639681433508007721507212227100, nat_lit 14863627379148727194931412334629960126200, nat_lit 169117749990729936350421409071818871120⟩,
  ⟨nat_lit 14863627379148727194931412334629960126200, nat_lit 298481041639681433508007721507212227100, nat_lit 169117749990729936350421409071818871120⟩,
  ⟨nat_lit 298481041639681433508007721507212227100, nat_lit 4837891579211591371560579943862827646600, nat_lit 169117749990729936350421409071818871120⟩,
  ⟨nat_lit 4837891579211591371560579943862827646600, nat_lit 298481041639681433508007721507212227100, nat_lit 169117749990729936350421409071818871120⟩,
  ⟨nat_lit 1201725506446133959847924919157158617400, nat_lit 18602753977536102933125760501560381002900, nat_lit 66544027257187765179463625108825701742⟩,
  ⟨nat_lit 18602753977536102933125760501560381002900, nat_lit 1201725506446133959847924919157158617400, nat_lit 66544027257187765179463625108825701742⟩,
  ⟨nat_lit 195520516017763107026314579282460379700, nat_lit 18602753977536102933125760501560381002900, nat_lit 66544027257187765179463625108825701742⟩,
  ⟨nat_lit 18602753977536102933125760501560381002900, nat_lit 195520516017763107026314579282460379700, nat_lit 66544027257187765179463625108825701742⟩,
  ⟨nat_lit 195520516017763107026314579282460379700, nat_lit 1201725506446133959847924919157158617400, nat_lit 66544027257187765179463625108825701742⟩,
  ⟨nat_lit 1201725506446133959847924919157158617400, nat_lit 195520516017763107026314579282460379700, nat_lit 66544027257187765179463625108825701742⟩]

theorem tri19_eq : normWV2 tri19 = some tri19N := by decide +kernel
theorem tri19_in : all2In (2 * 10 ^ 40) tri19N = true := by decide +kernel
theorem tri19_ok : all2 (2 * 10 ^ 40) (4 * 10 ^ 40) (10 ^ 38) tri19N 19 = true := by decide +kernel

def tri20N : List Pt2 := [
  ⟨nat_lit 6666666666666666666666666666666666666700, nat_lit 6666666666666666666666666666666666666700, nat_lit 556404428058124636315667882538980515320⟩,
  ⟨nat_lit 5091585353466782247697052962547692768500, nat_lit 9816829293066435504605894074904614463010, nat_lit 563328052300809901286417841247306993600⟩,
  ⟨nat_lit 9816829293066435504605894074904614463010, nat_lit 5091585353466782247697052962547692768500, nat_lit 563328052300809901286417841247306993600⟩,
  ⟨nat_lit 5091585353466782247697052962547692768500, nat_lit 5091585353466782247697052962547692768500, nat_lit 563328052300809901286417841247306993600⟩,
  ⟨nat_lit 219522820567955280792960237177596249300, nat_lit 19560954358864089438414079525644807501500, nat_lit 31953631642664794478945847330657770722⟩,
  ⟨nat_lit 19560954358864089438414079525644807501500, nat_lit 219522820567955280792960237177596249300, nat_lit 31953631642664794478945847330657770722⟩,
  ⟨nat_lit 219522820567955280792960237177596249300, nat_lit 219522820567955280792960237177596249300, nat_lit 31953631642664794478945847330657770722⟩,
  ⟨nat_lit 2187671934234291940337449497996672441100, nat_lit 15624656131531416119325101004006655117800, nat_lit 313209231042981336844070036488942034470⟩,
  ⟨nat_lit 15624656131531416119325101004006655117800, nat_lit 2187671934234291940337449497996672441100, nat_lit 313209231042981336844070036488942034470⟩,
  ⟨nat_lit 2187671934234291940337449497996672441100, nat_lit 2187671934234291940337449497996672441100, nat_lit 313209231042981336844070036488942034470⟩,
  ⟨nat_lit 3725899954890818855434650161152487089500, nat_lit 12548200090218362289130699677695025821000, nat_lit 366938518970116579192528541181380435370⟩,
  ⟨nat_lit 12548200090218362289130699677695025821000, nat_lit 3725899954890818855434650161152487089500, nat_lit 366938518970116579192528541181380435370⟩,
  ⟨nat_lit 3725899954890818855434650161152487089500, nat_lit 3725899954890818855434650161152487089500, nat_lit 366938518970116579192528541181380435370⟩,
  ⟨nat_lit 8911021139118496303744445568684288153300, nat_lit 2177957721763007392511108862631423693300, nat_lit 378095997329297907473141626407995967210⟩,
  ⟨nat_lit 2177957721763007392511108862631423693300, nat_lit 8911021139118496303744445568684288153300, nat_lit 378095997329297907473141626407995967210⟩,
  ⟨nat_lit 8911021139118496303744445568684288153300, nat_lit 8911021139118496303744445568684288153300, nat_lit 378095997329297907473141626407995967210⟩,
  ⟨nat_lit 746217611977693879870074325744324438800, nat_lit 18507564776044612240259851348511351122400, nat_lit 86451016426623101046927221578067745080⟩,
  ⟨nat_lit 18507564776044612240259851348511351122400, nat_lit 746217611977693879870074325744324438800, nat_lit 86451016426623101046927221578067745080⟩,
  ⟨nat_lit 746217611977693879870074325744324438800, nat_lit 746217611977693879870074325744324438800, nat_lit 86451016426623101046927221578067745080⟩,
  ⟨nat_lit 7868506956341997173579274870065551829600, nat_lit 4262986087316005652841450259868896340700, nat_lit 551522025162818360535508908632773930790⟩,
  ⟨nat_lit 4262986087316005652841450259868896340700, nat_lit 7868506956341997173579274870065551829600, nat_lit 551522025162818360535508908632773930790⟩,
  ⟨nat_lit 7868506956341997173579274870065551829600, nat_lit 7868506956341997173579274870065551829600, nat_lit 551522025162818360535508908632773930790⟩,
  ⟨nat_lit 9524912230809980264207037444651819119390, nat_lit 950175538380039471585925110696361761200, nat_lit 284073012136337619676804659244792903820⟩,
  ⟨nat_lit 950175538380039471585925110696361761200, nat_lit 9524912230809980264207037444651819119390, nat_lit 284073012136337619676804659244792903820⟩,
  ⟨nat_lit 9524912230809980264207037444651819119390, nat_lit 9524912230809980264207037444651819119390, nat_lit 284073012136337619676804659244792903820⟩,
  ⟨nat_lit 151415610093930565264669170571230919800, nat_lit 16665910236764724943443023800861731924100, nat_lit 88115896742339902561312708157853846482⟩,
  ⟨nat_lit 16665910236764724943443023800861731924100, nat_lit 151415610093930565264669170571230919800, nat_lit 88115896742339902561312708157853846482⟩,
  ⟨nat_lit 3182674153141344491292307028567037156200, nat_lit 16665910236764724943443023800861731924100, nat_lit 88115896742339902561312708157853846482⟩,
  ⟨nat_lit 16665910236764724943443023800861731924100, nat_lit 3182674153141344491292307028567037156200, nat_lit 88115896742339902561312708157853846482⟩,
  ⟨nat_lit 3182674153141344491292307028567037156200, nat_lit 151415610093930565264669170571230919800, nat_lit 88115896742339902561312708157853846482⟩,
  ⟨nat_lit 151415610093930565264669170571230919800, nat_lit 3182674153141344491292307028567037156200, nat_lit 88115896742339902561312708157853846482⟩,
  ⟨nat_lit 931207298153286330275391092105361129300, nat_lit 15098430057270950102124174847737658903000, nat_lit 239455943158187600805852561449991654930⟩,
  ⟨nat_lit 15098430057270950102124174847737658903000, nat_lit 931207298153286330275391092105361129300, nat_lit 239455943158187600805852561449991654930⟩,
  ⟨nat_lit 3970362644575763567600434060156979967700, nat_lit 15098430057270950102124174847737658903000, nat_lit 239455943158187600805852561449991654930⟩,
  ⟨nat_lit 15098430057270950102124174847737658903000, nat_lit 3970362644575763567600434060156979967700, nat_lit 239455943158187600805852561449991654930⟩,
  ⟨nat_lit 3970362644575763567600434060156979967700, nat_lit 931207298153286330275391092105361129300, nat_lit 239455943158187600805852561449991654930⟩,
  ⟨nat_lit 931207298153286330275391092105361129300, nat_lit 3970362644575763567600434060156979967700, nat_lit 239455943158187600805852561449991654930⟩,
  ⟨nat_lit 1281811712168681200997313352356603754300, nat_lit 18621089535678843733235383616065120710900, nat_lit 45194784085034621179235150583929560485⟩,
  ⟨nat_lit 18621089535678843733235383616065120710900, nat_lit 1281811712168681200997313352356603754300, nat_lit 45194784085034621179235150583929560485⟩,
  ⟨nat_lit 97098752152475065767303031578275534800, nat_lit 18621089535678843733235383616065120710900, nat_lit 45194784085034621179235150583929560485⟩,
  ⟨nat_lit 18621089535678843733235383616065120710900, nat_lit 97098752152475065767303031578275534800, nat_lit 45194784085034621179235150583929560485⟩,
  ⟨nat_lit 97098752152475065767303031578275534800, nat_lit 1281811712168681200997313352356603754300, nat_lit 45194784085034621179235150583929560485⟩,
  ⟨nat_lit 1281811712168681200997313352356603754300, nat_lit 97098752152475065767303031578275534800, nat_lit 45194784085034621179235150583929560485⟩,
  ⟨nat_lit 1099749582859736212684544970316295420800, nat_lit 12237554070948513998762953076432854303200, nat_lit 346689022688773322487306260580357342210⟩,
  ⟨nat_lit 12237554070948513998762953076432854303200, nat_lit 1099749582859736212684544970316295420800, nat_lit 346689022688773322487306260580357342210⟩,
  ⟨nat_lit 6662696346191749788552501953250850276000, nat_lit 12237554070948513998762953076432854303200, nat_lit 346689022688773322487306260580357342210⟩,
  ⟨nat_lit 12237554070948513998762953076432854303200, nat_lit 6662696346191749788552501953250850276000, nat_lit 346689022688773322487306260580357342210⟩,
  ⟨nat_lit 6662696346191749788552501953250850276000, nat_lit 1099749582859736212684544970316295420800, nat_lit 346689022688773322487306260580357342210⟩,
  ⟨nat_lit 1099749582859736212684544970316295420800, nat_lit 6662696346191749788552501953250850276000, nat_lit 346689022688773322487306260580357342210⟩,
  ⟨nat_lit 1999045925762773107658156466942323962000, nat_lit 17233680378729734984889616484114646011200, nat_lit 165828461104554308510494506356304765980⟩,
  ⟨nat_lit 17233680378729734984889616484114646011200, nat_lit 1999045925762773107658156466942323962000, nat_lit 165828461104554308510494506356304765980⟩,
  ⟨nat_lit 767273695507491907452227048943030026900, nat_lit 17233680378729734984889616484114646011200, nat_lit 165828461104554308510494506356304765980⟩,
  ⟨nat_lit 17233680378729734984889616484114646011200, nat_lit 767273695507491907452227048943030026900, nat_lit 165828461104554308510494506356304765980⟩,
  ⟨nat_lit 767273695507491907452227048943030026900, nat_lit 1999045925762773107658156466942323962000, nat_lit 165828461104554308510494506356304765980⟩,
  ⟨nat_lit 1999045925762773107658156466942323962000, nat_lit 767273695507491907452227048943030026900, nat_lit 165828461104554308510494506356304765980⟩,
  ⟨nat_lit 2124544094405400847251086041077848961200, nat_lit 13563314757792711092159954599912319312400, nat_lit 308904312883969193774816506508534171830⟩,
  ⟨nat_lit 13563314757792711092159954599912319312400, nat_lit 2124544094405400847251086041077848961200, nat_lit 308904312883969193774816506508534171830⟩,
  ⟨nat_lit 4312141147801888060588959359009831726400, nat_lit 13563314757792711092159954599912319312400, nat_lit 308904312883969193774816506508534171830⟩,
  ⟨nat_lit 13563314757792711092159954599912319312400, nat_lit 4312141147801888060588959359009831726400, nat_lit 308904312883969193774816506508534171830⟩,
  ⟨nat_lit 4312141147801888060588959359009831726400, nat_lit 2124544094405400847251086041077848961200, nat_lit 308904312883969193774816506508534171830⟩,
  ⟨nat_lit 2124544094405400847251086041077848961200, nat_lit 4312141147801888060588959359009831726400, nat_lit 308904312883969193774816506508534171830⟩,
  ⟨nat_lit 8400475176324481592928858338945378872000, nat_lit 11402893857819467195500916946480886286000, nat_lit 147827260010211919128768744527703816900⟩,
  ⟨nat_lit 11402893857819467195500916946480886286000, nat_lit 8400475176324481592928858338945378872000, nat_lit 147827260010211919128768744527703816900⟩,
  ⟨nat_lit 196630965856051211570224714573734842000, nat_lit 11402893857819467195500916946480886286000, nat_lit 147827260010211919128768744527703816900⟩,
  ⟨nat_lit 11402893857819467195500916946480886286000, nat_lit 196630965856051211570224714573734842000, nat_lit 147827260010211919128768744527703816900⟩,
  ⟨nat_lit 196630965856051211570224714573734842000, nat_lit 8400475176324481592928858338945378872000, nat_lit 147827260010211919128768744527703816900⟩,
  ⟨nat_lit 8400475176324481592928858338945378872000, nat_lit 196630965856051211570224714573734842000, nat_lit 147827260010211919128768744527703816900⟩,
  ⟨nat_lit 6357202476715440319519353432605192964400, nat_lit 10846636083448561708597616888026463366410, nat_lit 467669829273109477301843109377818498140⟩,
  ⟨nat_lit 10846636083448561708597616888026463366410, nat_lit 6357202476715440319519353432605192964400, nat_lit 467669829273109477301843109377818498140⟩,
  ⟨nat_lit 2796161439835997971883029679368343669200, nat_lit 10846636083448561708597616888026463366410, nat_lit 467669829273109477301843109377818498140⟩,
  ⟨nat_lit 10846636083448561708597616888026463366410, nat_lit 2796161439835997971883029679368343669200, nat_lit 467669829273109477301843109377818498140⟩,
  ⟨nat_lit 2796161439835997971883029679368343669200, nat_lit 6357202476715440319519353432605192964400, nat_lit 467669829273109477301843109377818498140⟩,
  ⟨nat_lit 6357202476715440319519353432605192964400, nat_lit 2796161439835997971883029679368343669200, nat_lit 467669829273109477301843109377818498140⟩,
  ⟨nat_lit 214744257120221746610491220157915541900, nat_lit 14173627514406473556639778168960820322900, nat_lit 143128009538307414597253464311717366630⟩,
  ⟨nat_lit 14173627514406473556639778168960820322900, nat_lit 214744257120221746610491220157915541900, nat_lit 143128009538307414597253464311717366630⟩,
  ⟨nat_lit 5611628228473304696749730610881264135200, nat_lit 14173627514406473556639778168960820322900, nat_lit 143128009538307414597253464311717366630⟩,
  ⟨nat_lit 14173627514406473556639778168960820322900, nat_lit 5611628228473304696749730610881264135200, nat_lit 143128009538307414597253464311717366630⟩,
  ⟨nat_lit 5611628228473304696749730610881264135200, nat_lit 214744257120221746610491220157915541900, nat_lit 143128009538307414597253464311717366630⟩,
  ⟨nat_lit 214744257120221746610491220157915541900, nat_lit 5611628228473304696749730610881264135200, nat_lit 143128009538307414597253464311717366630⟩]

theorem tri20_eq : normWV2 tri20 = some tri20N := by decide +kernel
theorem tri20_in : all2In (2 * 10 ^ 40) tri20N = true := by decide +kernel
theorem tri20_ok : all2 (2 * 10 ^ 40) (4 * 10 ^ 40) (10 ^ 38) tri20N 20 = true := by decide +kernel

end Tandem.QuadTable
