import Verif.Model.QuadTable
/-! Generated by tools/gen_tables.py from src/quadrules/WitherdenVincent2015_Tri.cpp: do not edit. -/
namespace Tandem.QuadTable
set_option maxRecDepth 100000

/-- The rule of order 1 in `WitherdenVincent2015_Tri`, src/quadrules/WitherdenVincent2015_Tri.cpp lines 10-12. -/
def tri1 : Raw := ⟨1, 38, [
  [-33333333333333333333333333333333333333, -33333333333333333333333333333333333333]],
  [200000000000000000000000000000000000000]⟩

/-- The rule of order 2 in `WitherdenVincent2015_Tri`, src/quadrules/WitherdenVincent2015_Tri.cpp lines 13-18. -/
def tri2 : Raw := ⟨2, 38, [
  [-66666666666666666666666666666666666667, 33333333333333333333333333333333333333],
  [33333333333333333333333333333333333333, -66666666666666666666666666666666666667],
  [-66666666666666666666666666666666666667, -66666666666666666666666666666666666667]],
  [66666666666666666666666666666666666667,
  66666666666666666666666666666666666667,
  66666666666666666666666666666666666667]⟩

/-- The rule of order 4 in `WitherdenVincent2015_Tri`, src/quadrules/WitherdenVincent2015_Tri.cpp lines 19-28. -/
def tri4 : Raw := ⟨4, 38, [
  [-10810301816807022736334149223389602320, -78379396366385954527331701553220795360],
  [-78379396366385954527331701553220795360, -10810301816807022736334149223389602320],
  [-10810301816807022736334149223389602320, -10810301816807022736334149223389602320],
  [-81684757298045851308085707319559698429, 63369514596091702616171414639119396858],
  [63369514596091702616171414639119396858, -81684757298045851308085707319559698429],
  [-81684757298045851308085707319559698429, -81684757298045851308085707319559698429]],
  [44676317935602293139001401686624560874,
  44676317935602293139001401686624560874,
  44676317935602293139001401686624560874,
  21990348731064373527665264980042105793,
  21990348731064373527665264980042105793,
  21990348731064373527665264980042105793]⟩

/-- The rule of order 5 in `WitherdenVincent2015_Tri`, src/quadrules/WitherdenVincent2015_Tri.cpp lines 29-40. -/
def tri5 : Raw := ⟨5, 39, [
  [-333333333333333333333333333333333333330, -333333333333333333333333333333333333330],
  [-797426985353087322398025276169752343890, 594853970706174644796050552339504687780],
  [594853970706174644796050552339504687780, -797426985353087322398025276169752343890],
  [-797426985353087322398025276169752343890, -797426985353087322398025276169752343890],
  [-59715871789769820459117580973104798968, -880568256420460359081764838053790402060],
  [-880568256420460359081764838053790402060, -59715871789769820459117580973104798968],
  [-59715871789769820459117580973104798968, -59715871789769820459117580973104798968]],
  [450000000000000000000000000000000000000,
  251878361089654305191367891000362667320,
  251878361089654305191367891000362667320,
  251878361089654305191367891000362667320,
  264788305577012361475298775666303999350,
  264788305577012361475298775666303999350,
  264788305577012361475298775666303999350]⟩

/-- The rule of order 6 in `WitherdenVincent2015_Tri`, src/quadrules/WitherdenVincent2015_Tri.cpp lines 41-59. -/
def tri6 : Raw := ⟨6, 40, [
  [-8738219710169955433193367942583616853200, 7476439420339910866386735885167233706400],
  [7476439420339910866386735885167233706400, -8738219710169955433193367942583616853200],
  [-8738219710169955433193367942583616853200, -8738219710169955433193367942583616853200],
  [-5014265096581791574167228937859618478200, 28530193163583148334457875719236956481],
  [28530193163583148334457875719236956481, -5014265096581791574167228937859618478200],
  [-5014265096581791574167228937859618478200, -5014265096581791574167228937859618478200],
  [-8937099003103661052935006567372037060100, 2730049982427972944602851888240993996100],
  [2730049982427972944602851888240993996100, -8937099003103661052935006567372037060100],
  [-3792950979324311891667845320868956935900, 2730049982427972944602851888240993996100],
  [2730049982427972944602851888240993996100, -3792950979324311891667845320868956935900],
  [-3792950979324311891667845320868956935900, -8937099003103661052935006567372037060100],
  [-8937099003103661052935006567372037060100, -3792950979324311891667845320868956935900]],
  [1016898127404136338418736182137379680900,
  1016898127404136338418736182137379680900,
  1016898127404136338418736182137379680900,
  2335725514527587320505792227711588826500,
  2335725514527587320505792227711588826500,
  2335725514527587320505792227711588826500,
  1657021512367471503871069128408849079600,
  1657021512367471503871069128408849079600,
  1657021512367471503871069128408849079600,
  1657021512367471503871069128408849079600,
  1657021512367471503871069128408849079600,
  1657021512367471503871069128408849079600]⟩

/-- The rule of order 7 in `WitherdenVincent2015_Tri`, src/quadrules/WitherdenVincent2015_Tri.cpp lines 60-83. -/
def tri7 : Raw := ⟨7, 39, [
  [-932538702890824302570056547398367523850, 865077405781648605140113094796735047700],
  [865077405781648605140113094796735047700, -932538702890824302570056547398367523850],
  [-932538702890824302570056547398367523850, -932538702890824302570056547398367523850],
  [-516845234809192882099626460324436000820, 33690469618385764199252920648872001638],
  [33690469618385764199252920648872001638, -516845234809192882099626460324436000820],
  [-516845234809192882099626460324436000820, -516845234809192882099626460324436000820],
  [-51380614990563531580838528101628435036, -897238770018872936838322943796743129930],
  [-897238770018872936838322943796743129930, -51380614990563531580838528101628435036],
  [-51380614990563531580838528101628435036, -51380614990563531580838528101628435036],
  [-905926710694809533317180049286230048970, 508560081100106354712478649256239927380],
  [508560081100106354712478649256239927380, -905926710694809533317180049286230048970],
  [-602633370405296821395298599970009878420, 508560081100106354712478649256239927380],
  [508560081100106354712478649256239927380, -602633370405296821395298599970009878420],
  [-602633370405296821395298599970009878420, -905926710694809533317180049286230048970],
  [-905926710694809533317180049286230048970, -602633370405296821395298599970009878420]],
  [33090100221584262071955896945834891238,
  33090100221584262071955896945834891238,
  33090100221584262071955896945834891238,
  255888342460311145565802470369292621330,
  255888342460311145565802470369292621330,
  255888342460311145565802470369292621330,
  154173292371972135669643041667482772930,
  154173292371972135669643041667482772930,
  154173292371972135669643041667482772930,
  111757465806399561679632628842028190590,
  111757465806399561679632628842028190590,
  111757465806399561679632628842028190590,
  111757465806399561679632628842028190590,
  111757465806399561679632628842028190590,
  111757465806399561679632628842028190590]⟩

/-- The rule of order 8 in `WitherdenVincent2015_Tri`, src/quadrules/WitherdenVincent2015_Tri.cpp lines 84-108. -/
def tri8 : Raw := ⟨8, 39, [
  [-333333333333333333333333333333333333330, -333333333333333333333333333333333333330],
  [-81414823414553687942368971011661355879, -837170353170892624115262057976677288240],
  [-837170353170892624115262057976677288240, -81414823414553687942368971011661355879],
  [-81414823414553687942368971011661355879, -81414823414553687942368971011661355879],
  [-658861384496479586755412997017070997960, 317722768992959173510825994034141995930],
  [317722768992959173510825994034141995930, -658861384496479586755412997017070997960],
  [-658861384496479586755412997017070997960, -658861384496479586755412997017070997960],
  [-898905543365938049083152898806802106310, 797811086731876098166305797613604212620],
  [797811086731876098166305797613604212620, -898905543365938049083152898806802106310],
  [-898905543365938049083152898806802106310, -898905543365938049083152898806802106310],
  [-983210445180084789325572330921411101620, 456984785910808562482000758352123926040],
  [456984785910808562482000758352123926040, -983210445180084789325572330921411101620],
  [-473774340730723773156428427430712824420, 456984785910808562482000758352123926040],
  [456984785910808562482000758352123926040, -473774340730723773156428427430712824420],
  [-473774340730723773156428427430712824420, -983210445180084789325572330921411101620],
  [-983210445180084789325572330921411101620, -473774340730723773156428427430712824420]],
  [288631215355574336502182220978129249600,
  190183268534569249587792208777168633200,
  190183268534569249587792208777168633200,
  190183268534569249587792208777168633200,
  206434741069436500563583100584258060030,
  206434741069436500563583100584258060030,
  206434741069436500563583100584258060030,
  64916995246396160621851856683561193593,
  64916995246396160621851856683561193593,
  64916995246396160621851856683561193593,
  54460628348869988529689380147817848320,
  54460628348869988529689380147817848320,
  54460628348869988529689380147817848320,
  54460628348869988529689380147817848320,
  54460628348869988529689380147817848320,
  54460628348869988529689380147817848320]⟩

/-- The rule of order 9 in `WitherdenVincent2015_Tri`, src/quadrules/WitherdenVincent2015_Tri.cpp lines 109-138. -/
def tri9 : Raw := ⟨9, 39, [
  [-333333333333333333333333333333333333330, -333333333333333333333333333333333333330],
  [-125820817014126725460139271129290054640, -748358365971746549079721457741419890720],
  [-748358365971746549079721457741419890720, -125820817014126725460139271129290054640],
  [-125820817014126725460139271129290054640, -125820817014126725460139271129290054640],
  [-623592928761934539518077439065328863780, 247185857523869079036154878130657727550],
  [247185857523869079036154878130657727550, -623592928761934539518077439065328863780],
  [-623592928761934539518077439065328863780, -623592928761934539518077439065328863780],
  [-20634961602524744432586150327614401262, -958730076794950511134827699344771197480],
  [-958730076794950511134827699344771197480, -20634961602524744432586150327614401262],
  [-20634961602524744432586150327614401262, -20634961602524744432586150327614401262],
  [-910540973211094580269786820067447270000, 821081946422189160539573640134894540000],
  [821081946422189160539573640134894540000, -910540973211094580269786820067447270000],
  [-910540973211094580269786820067447270000, -910540973211094580269786820067447270000],
  [-926323175890527432730364802433229795380, 482397197568996041380159747046847654870],
  [482397197568996041380159747046847654870, -926323175890527432730364802433229795380],
  [-556074021678468608649794944613617859490, 482397197568996041380159747046847654870],
  [482397197568996041380159747046847654870, -556074021678468608649794944613617859490],
  [-556074021678468608649794944613617859490, -926323175890527432730364802433229795380],
  [-926323175890527432730364802433229795380, -556074021678468608649794944613617859490]],
  [194271592565597667638483965014577259480,
  155655082009548558633478712598807912240,
  155655082009548558633478712598807912240,
  155655082009548558633478712598807912240,
  159295477854420506065783548528090546500,
  159295477854420506065783548528090546500,
  159295477854420506065783548528090546500,
  62669400454278141073709662574418630986,
  62669400454278141073709662574418630986,
  62669400454278141073709662574418630986,
  51155351317396062523357597117999647955,
  51155351317396062523357597117999647955,
  51155351317396062523357597117999647955,
  86567078754578754578754578754578754579,
  86567078754578754578754578754578754579,
  86567078754578754578754578754578754579,
  86567078754578754578754578754578754579,
  86567078754578754578754578754578754579,
  86567078754578754578754578754578754579]⟩

/-- The rule of order 10 in `WitherdenVincent2015_Tri`, src/quadrules/WitherdenVincent2015_Tri.cpp lines 139-177. -/
def tri10 : Raw := ⟨10, 39, [
  [-333333333333333333333333333333333333330, -333333333333333333333333333333333333330],
  [-935889253566112974138030821327020522070, 871778507132225948276061642654041044140],
  [871778507132225948276061642654041044140, -935889253566112974138030821327020522070],
  [-935889253566112974138030821327020522070, -935889253566112974138030821327020522070],
  [-715677797886871229815675793618083356560, 431355595773742459631351587236166713120],
  [431355595773742459631351587236166713120, -715677797886871229815675793618083356560],
  [-715677797886871229815675793618083356560, -715677797886871229815675793618083356560],
  [-356374009422329157549804878027902572530, 60108237854688056554191347891388233782],
  [60108237854688056554191347891388233782, -356374009422329157549804878027902572530],
  [-703734228432358899004386469863485661250, 60108237854688056554191347891388233782],
  [60108237854688056554191347891388233782, -703734228432358899004386469863485661250],
  [-703734228432358899004386469863485661250, -356374009422329157549804878027902572530],
  [-356374009422329157549804878027902572530, -703734228432358899004386469863485661250],
  [-940760221022540464732327461147914398950, 202466657366918490909485786917375618750],
  [202466657366918490909485786917375618750, -940760221022540464732327461147914398950],
  [-261706436344378026177158325769461219800, 202466657366918490909485786917375618750],
  [202466657366918490909485786917375618750, -261706436344378026177158325769461219800],
  [-261706436344378026177158325769461219800, -940760221022540464732327461147914398950],
  [-940760221022540464732327461147914398950, -261706436344378026177158325769461219800],
  [-943264669320123121499128488843739588810, 615861201845758130159899805763488218140],
  [615861201845758130159899805763488218140, -943264669320123121499128488843739588810],
  [-672596532525635008660771316919748629320, 615861201845758130159899805763488218140],
  [615861201845758130159899805763488218140, -672596532525635008660771316919748629320],
  [-672596532525635008660771316919748629320, -943264669320123121499128488843739588810],
  [-943264669320123121499128488843739588810, -672596532525635008660771316919748629320]],
  [163486658292571932856237369968355224390,
  26705937626299132551145956798137306994,
  26705937626299132551145956798137306994,
  26705937626299132551145956798137306994,
  91915927209489456027575819265095632800,
  91915927209489456027575819265095632800,
  91915927209489456027575819265095632800,
  127809812792848090865797467525306643730,
  127809812792848090865797467525306643730,
  127809812792848090865797467525306643730,
  127809812792848090865797467525306643730,
  127809812792848090865797467525306643730,
  127809812792848090865797467525306643730,
  68369296325918857257383168082684580517,
  68369296325918857257383168082684580517,
  68369296325918857257383168082684580517,
  68369296325918857257383168082684580517,
  68369296325918857257383168082684580517,
  68369296325918857257383168082684580517,
  50595515414576768778085581365666435125,
  50595515414576768778085581365666435125,
  50595515414576768778085581365666435125,
  50595515414576768778085581365666435125,
  50595515414576768778085581365666435125,
  50595515414576768778085581365666435125]⟩

/-- The rule of order 11 in `WitherdenVincent2015_Tri`, src/quadrules/WitherdenVincent2015_Tri.cpp lines 178-221. -/
def tri11 : Raw := ⟨11, 40, [
  [-3333333333333333333333333333333333333300, -3333333333333333333333333333333333333300],
  [-9430291647712561810403672663898190186500, 8860583295425123620807345327796380373000],
  [8860583295425123620807345327796380373000, -9430291647712561810403672663898190186500],
  [-9430291647712561810403672663898190186500, -9430291647712561810403672663898190186500],
  [-5795600865936434859838754633084147797300, 1591201731872869719677509266168295594600],
  [1591201731872869719677509266168295594600, -5795600865936434859838754633084147797300],
  [-5795600865936434859838754633084147797300, -5795600865936434859838754633084147797300],
  [-7947290345755071391017698602301116759400, 5894580691510142782035397204602233518900],
  [5894580691510142782035397204602233518900, -7947290345755071391017698602301116759400],
  [-7947290345755071391017698602301116759400, -7947290345755071391017698602301116759400],
  [-82161980682181738701197619927680147278, -9835676038635636522597604760144639705400],
  [-9835676038635636522597604760144639705400, -82161980682181738701197619927680147278],
  [-82161980682181738701197619927680147278, -82161980682181738701197619927680147278],
  [-1230681464712956179533282743149610916600, -7538637070574087640933434513700778166700],
  [-7538637070574087640933434513700778166700, -1230681464712956179533282743149610916600],
  [-1230681464712956179533282743149610916600, -1230681464712956179533282743149610916600],
  [-7013504226958352276085484242456529547400, 6866995673237063243979828727976498610800],
  [6866995673237063243979828727976498610800, -7013504226958352276085484242456529547400],
  [-9853491446278710967894344485519969063300, 6866995673237063243979828727976498610800],
  [6866995673237063243979828727976498610800, -9853491446278710967894344485519969063300],
  [-9853491446278710967894344485519969063300, -7013504226958352276085484242456529547400],
  [-7013504226958352276085484242456529547400, -9853491446278710967894344485519969063300],
  [-9079789996691400882200804474102654897600, 3288167483937283948070953526650315723000],
  [3288167483937283948070953526650315723000, -9079789996691400882200804474102654897600],
  [-4208377487245883065870149052547660825400, 3288167483937283948070953526650315723000],
  [3288167483937283948070953526650315723000, -4208377487245883065870149052547660825400],
  [-4208377487245883065870149052547660825400, -9079789996691400882200804474102654897600],
  [-9079789996691400882200804474102654897600, -4208377487245883065870149052547660825400]],
  [1715223594644484342763982507306539889500,
  208637410257893917460569841973246337030,
  208637410257893917460569841973246337030,
  208637410257893917460569841973246337030,
  1410313682234331566841477183458567396300,
  1410313682234331566841477183458567396300,
  1410313682234331566841477183458567396300,
  772615184740386449532676091788022982930,
  772615184740386449532676091788022982930,
  772615184740386449532676091788022982930,
  332125461091707391527516785501121217300,
  332125461091707391527516785501121217300,
  332125461091707391527516785501121217300,
  1346323081589366023956744112465755717700,
  1346323081589366023956744112465755717700,
  1346323081589366023956744112465755717700,
  205805791459065549861612549679590594380,
  205805791459065549861612549679590594380,
  205805791459065549861612549679590594380,
  205805791459065549861612549679590594380,
  205805791459065549861612549679590594380,
  205805791459065549861612549679590594380,
  806649532810011051684898358175962598420,
  806649532810011051684898358175962598420,
  806649532810011051684898358175962598420,
  806649532810011051684898358175962598420,
  806649532810011051684898358175962598420,
  806649532810011051684898358175962598420]⟩

/-- The rule of order 12 in `WitherdenVincent2015_Tri`, src/quadrules/WitherdenVincent2015_Tri.cpp lines 222-272. -/
def tri12 : Raw := ⟨12, 39, [
  [-23592498108916896443983752262370486151, -952815003782166207112032495475259027700],
  [-952815003782166207112032495475259027700, -23592498108916896443983752262370486151],
  [-23592498108916896443983752262370486151, -23592498108916896443983752262370486151],
  [-781484344681291418832505375991382509380, 562968689362582837665010751982765018760],
  [562968689362582837665010751982765018760, -781484344681291418832505375991382509380],
  [-781484344681291418832505375991382509380, -781484344681291418832505375991382509380],
  [-457074985970147830244008103954909802930, -85850028059704339511983792090180394140],
  [-85850028059704339511983792090180394140, -457074985970147830244008103954909802930],
  [-457074985970147830244008103954909802930, -457074985970147830244008103954909802930],
  [-950707273127328810466537605571330843600, 901414546254657620933075211142661687190],
  [901414546254657620933075211142661687190, -950707273127328810466537605571330843600],
  [-950707273127328810466537605571330843600, -950707273127328810466537605571330843600],
  [-119776702682813777973092593854183617890, -760446594634372444053814812291632764210],
  [-760446594634372444053814812291632764210, -119776702682813777973092593854183617890],
  [-119776702682813777973092593854183617890, -119776702682813777973092593854183617890],
  [-416688640523318078932172376132118765630, 370620327812783799968889372274260501400],
  [370620327812783799968889372274260501400, -416688640523318078932172376132118765630],
  [-953931687289465721036716996142141735770, 370620327812783799968889372274260501400],
  [370620327812783799968889372274260501400, -953931687289465721036716996142141735770],
  [-953931687289465721036716996142141735770, -416688640523318078932172376132118765630],
  [-416688640523318078932172376132118765630, -953931687289465721036716996142141735770],
  [-767407960644146826738503731700597722200, 256499503367112133675792276734458396750],
  [256499503367112133675792276734458396750, -767407960644146826738503731700597722200],
  [-489091542722965306937288545033860674540, 256499503367112133675792276734458396750],
  [256499503367112133675792276734458396750, -489091542722965306937288545033860674540],
  [-489091542722965306937288545033860674540, -767407960644146826738503731700597722200],
  [-767407960644146826738503731700597722200, -489091542722965306937288545033860674540],
  [702675585020480083236007220864116897190, -745440565532821262424316250505235322130],
  [-745440565532821262424316250505235322130, 702675585020480083236007220864116897190],
  [-957235019487658820811690970358881575060, -745440565532821262424316250505235322130],
  [-745440565532821262424316250505235322130, -957235019487658820811690970358881575060],
  [-957235019487658820811690970358881575060, 702675585020480083236007220864116897190],
  [702675585020480083236007220864116897190, -957235019487658820811690970358881575060]],
  [48533676162904066301435945151216167798,
  48533676162904066301435945151216167798,
  48533676162904066301435945151216167798,
  56972104137755089999388947815030892501,
  56972104137755089999388947815030892501,
  56972104137755089999388947815030892501,
  125082426391805520938647562891039678260,
  125082426391805520938647562891039678260,
  125082426391805520938647562891039678260,
  15863285019947276918629575811719468968,
  15863285019947276918629575811719468968,
  15863285019947276918629575811719468968,
  99836669856121884238103444121988601916,
  99836669856121884238103444121988601916,
  99836669856121884238103444121988601916,
  43567170077215115865262872678583643728,
  43567170077215115865262872678583643728,
  43567170077215115865262872678583643728,
  43567170077215115865262872678583643728,
  43567170077215115865262872678583643728,
  43567170077215115865262872678583643728,
  86454727318828421098266541833718459270,
  86454727318828421098266541833718459270,
  86454727318828421098266541833718459270,
  86454727318828421098266541833718459270,
  86454727318828421098266541833718459270,
  86454727318828421098266541833718459270,
  30167355153022877171701180925533825614,
  30167355153022877171701180925533825614,
  30167355153022877171701180925533825614,
  30167355153022877171701180925533825614,
  30167355153022877171701180925533825614,
  30167355153022877171701180925533825614]⟩

/-- The rule of order 13 in `WitherdenVincent2015_Tri`, src/quadrules/WitherdenVincent2015_Tri.cpp lines 273-329. -/
def tri13 : Raw := ⟨13, 39, [
  [-333333333333333333333333333333333333330, -333333333333333333333333333333333333330],
  [-21846107094921300198620561819591224690, -956307785810157399602758876360817550620],
  [-956307785810157399602758876360817550620, -21846107094921300198620561819591224690],
  [-21846107094921300198620561819591224690, -21846107094921300198620561819591224690],
  [-557255427416334198690374890589841844480, 114510854832668397380749781179683688960],
  [114510854832668397380749781179683688960, -557255427416334198690374890589841844480],
  [-557255427416334198690374890589841844480, -557255427416334198690374890589841844480],
  [-146117171480399187958374929937251577190, -707765657039201624083250140125496845620],
  [-707765657039201624083250140125496845620, -146117171480399187958374929937251577190],
  [-146117171480399187958374929937251577190, -146117171480399187958374929937251577190],
  [-956980637782313632261417372931895834800, 913961275564627264522834745863791669610],
  [913961275564627264522834745863791669610, -956980637782313632261417372931895834800],
  [-956980637782313632261417372931895834800, -956980637782313632261417372931895834800],
  [-824209033935605350813812994999333797770, 497014231799904390346037191577419300090],
  [497014231799904390346037191577419300090, -824209033935605350813812994999333797770],
  [-672805197864299039532224196578085502320, 497014231799904390346037191577419300090],
  [497014231799904390346037191577419300090, -672805197864299039532224196578085502320],
  [-672805197864299039532224196578085502320, -824209033935605350813812994999333797770],
  [-824209033935605350813812994999333797770, -672805197864299039532224196578085502320],
  [-778155914393073209174260909556650956440, 729415540590885550605091901791386366670],
  [729415540590885550605091901791386366670, -778155914393073209174260909556650956440],
  [-951259626197812341430830992234735410230, 729415540590885550605091901791386366670],
  [729415540590885550605091901791386366670, -951259626197812341430830992234735410230],
  [-951259626197812341430830992234735410230, -778155914393073209174260909556650956440],
  [-778155914393073209174260909556650956440, -951259626197812341430830992234735410230],
  [-383116478215764450683056294917509380560, 247091991107351141631708706372473171660],
  [247091991107351141631708706372473171660, -383116478215764450683056294917509380560],
  [-863975512891586690948652411454963791100, 247091991107351141631708706372473171660],
  [247091991107351141631708706372473171660, -863975512891586690948652411454963791100],
  [-863975512891586690948652411454963791100, -383116478215764450683056294917509380560],
  [-383116478215764450683056294917509380560, -863975512891586690948652411454963791100],
  [-989747221795235262881341193317741788050, 444715586248375930521240264609568097250],
  [444715586248375930521240264609568097250, -989747221795235262881341193317741788050],
  [-454968364453140667639899071291826309200, 444715586248375930521240264609568097250],
  [444715586248375930521240264609568097250, -454968364453140667639899071291826309200],
  [-454968364453140667639899071291826309200, -989747221795235262881341193317741788050],
  [-989747221795235262881341193317741788050, -454968364453140667639899071291826309200]],
  [135920073173663288563548849361769759020,
  47988803857789461547421598901919307449,
  47988803857789461547421598901919307449,
  47988803857789461547421598901919307449,
  116556970238399962809534167026679619030,
  116556970238399962809534167026679619030,
  116556970238399962809534167026679619030,
  111203935060906657414514932020922935060,
  111203935060906657414514932020922935060,
  111203935060906657414514932020922935060,
  12104674207078343683585600064581648939,
  12104674207078343683585600064581648939,
  12104674207078343683585600064581648939,
  48358079623187638274891491146121518585,
  48358079623187638274891491146121518585,
  48358079623187638274891491146121518585,
  48358079623187638274891491146121518585,
  48358079623187638274891491146121518585,
  48358079623187638274891491146121518585,
  29930802210331334526491714265806876009,
  29930802210331334526491714265806876009,
  29930802210331334526491714265806876009,
  29930802210331334526491714265806876009,
  29930802210331334526491714265806876009,
  29930802210331334526491714265806876009,
  69282552281696740931973657021836440891,
  69282552281696740931973657021836440891,
  69282552281696740931973657021836440891,
  69282552281696740931973657021836440891,
  69282552281696740931973657021836440891,
  69282552281696740931973657021836440891,
  19181362007086525445190180332221782772,
  19181362007086525445190180332221782772,
  19181362007086525445190180332221782772,
  19181362007086525445190180332221782772,
  19181362007086525445190180332221782772,
  19181362007086525445190180332221782772]⟩

/-- The rule of order 14 in `WitherdenVincent2015_Tri`, src/quadrules/WitherdenVincent2015_Tri.cpp lines 330-393. -/
def tri14 : Raw := ⟨14, 39, [
  [-645588935174913126086778619069881847830, 291177870349826252173557238139763695670],
  [291177870349826252173557238139763695670, -645588935174913126086778619069881847830],
  [-645588935174913126086778619069881847830, -645588935174913126086778619069881847830],
  [-164710561319092154981118355628713121780, -670578877361815690037763288742573756440],
  [-670578877361815690037763288742573756440, -164710561319092154981118355628713121780],
  [-164710561319092154981118355628713121780, -164710561319092154981118355628713121780],
  [-876400233818254797465042343126128423230, 752800467636509594930084686252256846470],
  [752800467636509594930084686252256846470, -876400233818254797465042343126128423230],
  [-876400233818254797465042343126128423230, -876400233818254797465042343126128423230],
  [-22072179275642722645247959095219528414, -955855641448714554709504081809560943170],
  [-955855641448714554709504081809560943170, -22072179275642722645247959095219528414],
  [-22072179275642722645247959095219528414, -22072179275642722645247959095219528414],
  [-453044943382322680490111433474602887610, -93910113235354639019777133050794224782],
  [-93910113235354639019777133050794224782, -453044943382322680490111433474602887610],
  [-453044943382322680490111433474602887610, -453044943382322680490111433474602887610],
  [-961218077502597903643499809890940977850, 922436155005195807286999619781881955700],
  [922436155005195807286999619781881955700, -961218077502597903643499809890940977850],
  [-961218077502597903643499809890940977850, -961218077502597903643499809890940977850],
  [-403254235727484494058336963880774542820, 373960335616175674717254308040626119520],
  [373960335616175674717254308040626119520, -403254235727484494058336963880774542820],
  [-970706099888691180658917344159851576690, 373960335616175674717254308040626119520],
  [373960335616175674717254308040626119520, -970706099888691180658917344159851576690],
  [-970706099888691180658917344159851576690, -403254235727484494058336963880774542820],
  [-403254235727484494058336963880774542820, -970706099888691180658917344159851576690],
  [-885750485192704121928645751562170579370, 541217109549992965178066548334855912650],
  [541217109549992965178066548334855912650, -885750485192704121928645751562170579370],
  [-655466624357288843249420796772685333290, 541217109549992965178066548334855912650],
  [541217109549992965178066548334855912650, -655466624357288843249420796772685333290],
  [-655466624357288843249420796772685333290, -885750485192704121928645751562170579370],
  [-885750485192704121928645751562170579370, -655466624357288843249420796772685333290],
  [-326277080407309996511889605822149221880, 140444581693366346995392426724708519280],
  [140444581693366346995392426724708519280, -326277080407309996511889605822149221880],
  [-814167501286056350483502820902559297400, 140444581693366346995392426724708519280],
  [140444581693366346995392426724708519280, -814167501286056350483502820902559297400],
  [-814167501286056350483502820902559297400, -326277080407309996511889605822149221880],
  [-326277080407309996511889605822149221880, -814167501286056350483502820902559297400],
  [-997463338134255949825507197809014614650, 759514342740342259029143273949203652010],
  [759514342740342259029143273949203652010, -997463338134255949825507197809014614650],
  [-762051004606086309203636076140189037350, 759514342740342259029143273949203652010],
  [759514342740342259029143273949203652010, -762051004606086309203636076140189037350],
  [-762051004606086309203636076140189037350, -997463338134255949825507197809014614650],
  [-997463338134255949825507197809014614650, -762051004606086309203636076140189037350]],
  [84325177473986035076460874648372259691,
  84325177473986035076460874648372259691,
  84325177473986035076460874648372259691,
  65576707088250701282621957477250686472,
  65576707088250701282621957477250686472,
  65576707088250701282621957477250686472,
  28867399339553335203419842961306633228,
  28867399339553335203419842961306633228,
  28867399339553335203419842961306633228,
  43767162738857781281689891926651943066,
  43767162738857781281689891926651943066,
  43767162738857781281689891926651943066,
  103548209014583172629569820332792804830,
  103548209014583172629569820332792804830,
  103548209014583172629569820332792804830,
  9846807204800163363652047018084309531,
  9846807204800163363652047018084309531,
  9846807204800163363652047018084309531,
  28872616227067680992177383998031606893,
  28872616227067680992177383998031606893,
  28872616227067680992177383998031606893,
  28872616227067680992177383998031606893,
  28872616227067680992177383998031606893,
  28872616227067680992177383998031606893,
  49331506425127347925750490367272456636,
  49331506425127347925750490367272456636,
  49331506425127347925750490367272456636,
  49331506425127347925750490367272456636,
  49331506425127347925750490367272456636,
  49331506425127347925750490367272456636,
  77143021574121366456978055620821718469,
  77143021574121366456978055620821718469,
  77143021574121366456978055620821718469,
  77143021574121366456978055620821718469,
  77143021574121366456978055620821718469,
  77143021574121366456978055620821718469,
  10020457677001343539720186164978232925,
  10020457677001343539720186164978232925,
  10020457677001343539720186164978232925,
  10020457677001343539720186164978232925,
  10020457677001343539720186164978232925,
  10020457677001343539720186164978232925]⟩

/-- The rule of order 15 in `WitherdenVincent2015_Tri`, src/quadrules/WitherdenVincent2015_Tri.cpp lines 394-468. -/
def tri15 : Raw := ⟨15, 40, [
  [-3333333333333333333333333333333333333300, -3333333333333333333333333333333333333300],
  [-1892755717320490442664877785604982820700, -6214488565359019114670244428790034358600],
  [-6214488565359019114670244428790034358600, -1892755717320490442664877785604982820700],
  [-1892755717320490442664877785604982820700, -1892755717320490442664877785604982820700],
  [-8596528942000279650312804957131427907300, 7193057884000559300625609914262855814600],
  [7193057884000559300625609914262855814600, -8596528942000279650312804957131427907300],
  [-8596528942000279650312804957131427907300, -8596528942000279650312804957131427907300],
  [-516586371239604160426186094517881882530, -8966827257520791679147627810964236234900],
  [-8966827257520791679147627810964236234900, -516586371239604160426186094517881882530],
  [-516586371239604160426186094517881882530, -516586371239604160426186094517881882530],
  [-5472425731593008034185488378307613945500, 944851463186016068370976756615227890950],
  [944851463186016068370976756615227890950, -5472425731593008034185488378307613945500],
  [-5472425731593008034185488378307613945500, -5472425731593008034185488378307613945500],
  [-100060864617476315244007046321782821050, -9799878270765047369511985907356434357900],
  [-9799878270765047369511985907356434357900, -100060864617476315244007046321782821050],
  [-100060864617476315244007046321782821050, -100060864617476315244007046321782821050],
  [-9683765474980227088820965324322649396900, 9367530949960454177641930648645298793800],
  [9367530949960454177641930648645298793800, -9683765474980227088820965324322649396900],
  [-9683765474980227088820965324322649396900, -9683765474980227088820965324322649396900],
  [-9632477752286378160779112088372081634000, 3339512896037361798926470784074242001400],
  [3339512896037361798926470784074242001400, -9632477752286378160779112088372081634000],
  [-3707035143750983638147358695702160367400, 3339512896037361798926470784074242001400],
  [3339512896037361798926470784074242001400, -3707035143750983638147358695702160367400],
  [-3707035143750983638147358695702160367400, -9632477752286378160779112088372081634000],
  [-9632477752286378160779112088372081634000, -3707035143750983638147358695702160367400],
  [-9817215259253832099268963650180269638100, 8398243154524721298057211905935847479200],
  [8398243154524721298057211905935847479200, -9817215259253832099268963650180269638100],
  [-8581027895270889198788248255755577841100, 8398243154524721298057211905935847479200],
  [8398243154524721298057211905935847479200, -8581027895270889198788248255755577841100],
  [-8581027895270889198788248255755577841100, -9817215259253832099268963650180269638100],
  [-9817215259253832099268963650180269638100, -8581027895270889198788248255755577841100],
  [-6189288210472121331386195006280717197000, 4304447138629014037679587375674608833300],
  [4304447138629014037679587375674608833300, -6189288210472121331386195006280717197000],
  [-8115158928156892706293392369393891636300, 4304447138629014037679587375674608833300],
  [4304447138629014037679587375674608833300, -8115158928156892706293392369393891636300],
  [-8115158928156892706293392369393891636300, -6189288210472121331386195006280717197000],
  [-6189288210472121331386195006280717197000, -8115158928156892706293392369393891636300],
  [-6638627095551712890704448228327410787900, 6265852820988385398245166260267159372300],
  [6265852820988385398245166260267159372300, -6638627095551712890704448228327410787900],
  [-9627225725436672507540718031939748584400, 6265852820988385398245166260267159372300],
  [6265852820988385398245166260267159372300, -9627225725436672507540718031939748584400],
  [-9627225725436672507540718031939748584400, -6638627095551712890704448228327410787900],
  [-6638627095551712890704448228327410787900, -9627225725436672507540718031939748584400],
  [-3220987770494456215708139906590960358700, 1305053297542284289037038687335125750600],
  [1305053297542284289037038687335125750600, -3220987770494456215708139906590960358700],
  [-8084065527047828073328898780744165391900, 1305053297542284289037038687335125750600],
  [1305053297542284289037038687335125750600, -8084065527047828073328898780744165391900],
  [-8084065527047828073328898780744165391900, -3220987770494456215708139906590960358700],
  [-3220987770494456215708139906590960358700, -8084065527047828073328898780744165391900]],
  [886707747643681507751986813140648079500,
  854275631429211340827258387456683606960,
  854275631429211340827258387456683606960,
  854275631429211340827258387456683606960,
  328894751252503275373600173770182589200,
  328894751252503275373600173770182589200,
  328894751252503275373600173770182589200,
  347922960015268291154531017685095066580,
  347922960015268291154531017685095066580,
  347922960015268291154531017685095066580,
  935667234574192647125377895615484783740,
  935667234574192647125377895615484783740,
  935667234574192647125377895615484783740,
  191476923649201724131385072531871174140,
  191476923649201724131385072531871174140,
  191476923649201724131385072531871174140,
  59215492758107511385526052767298787739,
  59215492758107511385526052767298787739,
  59215492758107511385526052767298787739,
  312051456611519295035498316570008463180,
  312051456611519295035498316570008463180,
  312051456611519295035498316570008463180,
  312051456611519295035498316570008463180,
  312051456611519295035498316570008463180,
  312051456611519295035498316570008463180,
  80597067440361992367286698217130156564,
  80597067440361992367286698217130156564,
  80597067440361992367286698217130156564,
  80597067440361992367286698217130156564,
  80597067440361992367286698217130156564,
  80597067440361992367286698217130156564,
  574411738504026804613312833433017120080,
  574411738504026804613312833433017120080,
  574411738504026804613312833433017120080,
  574411738504026804613312833433017120080,
  574411738504026804613312833433017120080,
  574411738504026804613312833433017120080,
  233452423631516906791540110886731718420,
  233452423631516906791540110886731718420,
  233452423631516906791540110886731718420,
  233452423631516906791540110886731718420,
  233452423631516906791540110886731718420,
  233452423631516906791540110886731718420,
  626309525699385688234858272123029857660,
  626309525699385688234858272123029857660,
  626309525699385688234858272123029857660,
  626309525699385688234858272123029857660,
  626309525699385688234858272123029857660,
  626309525699385688234858272123029857660]⟩

/-- The rule of order 16 in `WitherdenVincent2015_Tri`, src/quadrules/WitherdenVincent2015_Tri.cpp lines 469-553. -/
def tri16 : Raw := ⟨16, 146, [
  [-33333333333333333333333333333333333333000000000000000000000000000000000000000000000000000000000000000000000000000000000000000000000000000000000000, -33333333333333333333333333333333333333000000000000000000000000000000000000000000000000000000000000000000000000000000000000000000000000000000000000],
  [-50801985906571653105656444046583964100000000000000000000000000000000000000000000000000000000000000000000000000000000000000000000000000000000000000, 1603971813143306211312888093167928199100000000000000000000000000000000000000000000000000000000000000000000000000000000000000000000000000000000000],
  [1603971813143306211312888093167928199100000000000000000000000000000000000000000000000000000000000000000000000000000000000000000000000000000000000, -50801985906571653105656444046583964100000000000000000000000000000000000000000000000000000000000000000000000000000000000000000000000000000000000000],
  [-50801985906571653105656444046583964100000000000000000000000000000000000000000000000000000000000000000000000000000000000000000000000000000000000000, -50801985906571653105656444046583964100000000000000000000000000000000000000000000000000000000000000000000000000000000000000000000000000000000000000],
  [-16883020622915897355803864763197452860000000000000000000000000000000000000000000000000000000000000000000000000000000000000000000000000000000000000, -66233958754168205288392270473605094280000000000000000000000000000000000000000000000000000000000000000000000000000000000000000000000000000000000000],
  [-66233958754168205288392270473605094280000000000000000000000000000000000000000000000000000000000000000000000000000000000000000000000000000000000000, -16883020622915897355803864763197452860000000000000000000000000000000000000000000000000000000000000000000000000000000000000000000000000000000000000],
  [-16883020622915897355803864763197452860000000000000000000000000000000000000000000000000000000000000000000000000000000000000000000000000000000000000, -16883020622915897355803864763197452860000000000000000000000000000000000000000000000000000000000000000000000000000000000000000000000000000000000000],
  [-82928886682659935648935022895726939779000000000000000000000000000000000000000000000000000000000000000000000000000000000000000000000000000000000000, 65857773365319871297870045791453879558000000000000000000000000000000000000000000000000000000000000000000000000000000000000000000000000000000000000],
  [65857773365319871297870045791453879558000000000000000000000000000000000000000000000000000000000000000000000000000000000000000000000000000000000000, -82928886682659935648935022895726939779000000000000000000000000000000000000000000000000000000000000000000000000000000000000000000000000000000000000],
  [-82928886682659935648935022895726939779000000000000000000000000000000000000000000000000000000000000000000000000000000000000000000000000000000000000, -82928886682659935648935022895726939779000000000000000000000000000000000000000000000000000000000000000000000000000000000000000000000000000000000000],
  [-67616271161745754624623346597531512883000000000000000000000000000000000000000000000000000000000000000000000000000000000000000000000000000000000000, 35232542323491509249246693195063025766000000000000000000000000000000000000000000000000000000000000000000000000000000000000000000000000000000000000],
  [35232542323491509249246693195063025766000000000000000000000000000000000000000000000000000000000000000000000000000000000000000000000000000000000000, -67616271161745754624623346597531512883000000000000000000000000000000000000000000000000000000000000000000000000000000000000000000000000000000000000],
  [-67616271161745754624623346597531512883000000000000000000000000000000000000000000000000000000000000000000000000000000000000000000000000000000000000, -67616271161745754624623346597531512883000000000000000000000000000000000000000000000000000000000000000000000000000000000000000000000000000000000000],
  [-53815663675432935238750288859902834282, -100000000000000000000000000000000000000000000000000000000000000000000000000000000000000000000000000000000000000000000000000000000000000000000000000],
  [-100000000000000000000000000000000000000000000000000000000000000000000000000000000000000000000000000000000000000000000000000000000000000000000000000, -53815663675432935238750288859902834282],
  [-53815663675432935238750288859902834282, -53815663675432935238750288859902834282],
  [-4943854490811579182348441893097608994600000000000000000000000000000000000000000000000000000000000000000000000000000000000000000000000000000000000, -90112291018376841635303116213804782011000000000000000000000000000000000000000000000000000000000000000000000000000000000000000000000000000000000000],
  [-90112291018376841635303116213804782011000000000000000000000000000000000000000000000000000000000000000000000000000000000000000000000000000000000000, -4943854490811579182348441893097608994600000000000000000000000000000000000000000000000000000000000000000000000000000000000000000000000000000000000],
  [-4943854490811579182348441893097608994600000000000000000000000000000000000000000000000000000000000000000000000000000000000000000000000000000000000, -4943854490811579182348441893097608994600000000000000000000000000000000000000000000000000000000000000000000000000000000000000000000000000000000000],
  [-89048965017059377421655257720683258971000000000000000000000000000000000000000000000000000000000000000000000000000000000000000000000000000000000000, 50834012288953561570997807325829055003000000000000000000000000000000000000000000000000000000000000000000000000000000000000000000000000000000000000],
  [50834012288953561570997807325829055003000000000000000000000000000000000000000000000000000000000000000000000000000000000000000000000000000000000000, -89048965017059377421655257720683258971000000000000000000000000000000000000000000000000000000000000000000000000000000000000000000000000000000000000],
  [-61785047271894184149342549605145796032000000000000000000000000000000000000000000000000000000000000000000000000000000000000000000000000000000000000, 50834012288953561570997807325829055003000000000000000000000000000000000000000000000000000000000000000000000000000000000000000000000000000000000000],
  [50834012288953561570997807325829055003000000000000000000000000000000000000000000000000000000000000000000000000000000000000000000000000000000000000, -61785047271894184149342549605145796032000000000000000000000000000000000000000000000000000000000000000000000000000000000000000000000000000000000000],
  [-61785047271894184149342549605145796032000000000000000000000000000000000000000000000000000000000000000000000000000000000000000000000000000000000000, -89048965017059377421655257720683258971000000000000000000000000000000000000000000000000000000000000000000000000000000000000000000000000000000000000],
  [-89048965017059377421655257720683258971000000000000000000000000000000000000000000000000000000000000000000000000000000000000000000000000000000000000, -61785047271894184149342549605145796032000000000000000000000000000000000000000000000000000000000000000000000000000000000000000000000000000000000000],
  [-95359314446237258192502291745679921363000000000000000000000000000000000000000000000000000000000000000000000000000000000000000000000000000000000000, 93648873606191735836919518841625197884000000000000000000000000000000000000000000000000000000000000000000000000000000000000000000000000000000000000],
  [93648873606191735836919518841625197884000000000000000000000000000000000000000000000000000000000000000000000000000000000000000000000000000000000000, -95359314446237258192502291745679921363000000000000000000000000000000000000000000000000000000000000000000000000000000000000000000000000000000000000],
  [-98289559159954477644417227095945276521000000000000000000000000000000000000000000000000000000000000000000000000000000000000000000000000000000000000, 93648873606191735836919518841625197884000000000000000000000000000000000000000000000000000000000000000000000000000000000000000000000000000000000000],
  [93648873606191735836919518841625197884000000000000000000000000000000000000000000000000000000000000000000000000000000000000000000000000000000000000, -98289559159954477644417227095945276521000000000000000000000000000000000000000000000000000000000000000000000000000000000000000000000000000000000000],
  [-98289559159954477644417227095945276521000000000000000000000000000000000000000000000000000000000000000000000000000000000000000000000000000000000000, -95359314446237258192502291745679921363000000000000000000000000000000000000000000000000000000000000000000000000000000000000000000000000000000000000],
  [-95359314446237258192502291745679921363000000000000000000000000000000000000000000000000000000000000000000000000000000000000000000000000000000000000, -98289559159954477644417227095945276521000000000000000000000000000000000000000000000000000000000000000000000000000000000000000000000000000000000000],
  [-96213644343918817003656945894522367429000000000000000000000000000000000000000000000000000000000000000000000000000000000000000000000000000000000000, 29860739649089281625925299156381596948000000000000000000000000000000000000000000000000000000000000000000000000000000000000000000000000000000000000],
  [29860739649089281625925299156381596948000000000000000000000000000000000000000000000000000000000000000000000000000000000000000000000000000000000000, -96213644343918817003656945894522367429000000000000000000000000000000000000000000000000000000000000000000000000000000000000000000000000000000000000],
  [-33647095305170464622268353261859229520000000000000000000000000000000000000000000000000000000000000000000000000000000000000000000000000000000000000, 29860739649089281625925299156381596948000000000000000000000000000000000000000000000000000000000000000000000000000000000000000000000000000000000000],
  [29860739649089281625925299156381596948000000000000000000000000000000000000000000000000000000000000000000000000000000000000000000000000000000000000, -33647095305170464622268353261859229520000000000000000000000000000000000000000000000000000000000000000000000000000000000000000000000000000000000000],
  [-33647095305170464622268353261859229520000000000000000000000000000000000000000000000000000000000000000000000000000000000000000000000000000000000000, -96213644343918817003656945894522367429000000000000000000000000000000000000000000000000000000000000000000000000000000000000000000000000000000000000],
  [-96213644343918817003656945894522367429000000000000000000000000000000000000000000000000000000000000000000000000000000000000000000000000000000000000, -33647095305170464622268353261859229520000000000000000000000000000000000000000000000000000000000000000000000000000000000000000000000000000000000000],
  [-96193974051260510241812957568503652064000000000000000000000000000000000000000000000000000000000000000000000000000000000000000000000000000000000000, 80054740654085925227401383438774365525000000000000000000000000000000000000000000000000000000000000000000000000000000000000000000000000000000000000],
  [80054740654085925227401383438774365525000000000000000000000000000000000000000000000000000000000000000000000000000000000000000000000000000000000000, -96193974051260510241812957568503652064000000000000000000000000000000000000000000000000000000000000000000000000000000000000000000000000000000000000],
  [-83860766602825414985588425870270713461000000000000000000000000000000000000000000000000000000000000000000000000000000000000000000000000000000000000, 80054740654085925227401383438774365525000000000000000000000000000000000000000000000000000000000000000000000000000000000000000000000000000000000000],
  [80054740654085925227401383438774365525000000000000000000000000000000000000000000000000000000000000000000000000000000000000000000000000000000000000, -83860766602825414985588425870270713461000000000000000000000000000000000000000000000000000000000000000000000000000000000000000000000000000000000000],
  [-83860766602825414985588425870270713461000000000000000000000000000000000000000000000000000000000000000000000000000000000000000000000000000000000000, -96193974051260510241812957568503652064000000000000000000000000000000000000000000000000000000000000000000000000000000000000000000000000000000000000],
  [-96193974051260510241812957568503652064000000000000000000000000000000000000000000000000000000000000000000000000000000000000000000000000000000000000, -83860766602825414985588425870270713461000000000000000000000000000000000000000000000000000000000000000000000000000000000000000000000000000000000000],
  [-79478761952120380739655029677085645407000000000000000000000000000000000000000000000000000000000000000000000000000000000000000000000000000000000000, 17829768112849583758057340125685564327000000000000000000000000000000000000000000000000000000000000000000000000000000000000000000000000000000000000],
  [17829768112849583758057340125685564327000000000000000000000000000000000000000000000000000000000000000000000000000000000000000000000000000000000000, -79478761952120380739655029677085645407000000000000000000000000000000000000000000000000000000000000000000000000000000000000000000000000000000000000],
  [-38351006160729203018402310448599918920000000000000000000000000000000000000000000000000000000000000000000000000000000000000000000000000000000000000, 17829768112849583758057340125685564327000000000000000000000000000000000000000000000000000000000000000000000000000000000000000000000000000000000000],
  [17829768112849583758057340125685564327000000000000000000000000000000000000000000000000000000000000000000000000000000000000000000000000000000000000, -38351006160729203018402310448599918920000000000000000000000000000000000000000000000000000000000000000000000000000000000000000000000000000000000000],
  [-38351006160729203018402310448599918920000000000000000000000000000000000000000000000000000000000000000000000000000000000000000000000000000000000000, -79478761952120380739655029677085645407000000000000000000000000000000000000000000000000000000000000000000000000000000000000000000000000000000000000],
  [-79478761952120380739655029677085645407000000000000000000000000000000000000000000000000000000000000000000000000000000000000000000000000000000000000, -38351006160729203018402310448599918920000000000000000000000000000000000000000000000000000000000000000000000000000000000000000000000000000000000000],
  [-98812729996635546018503606477868396800000000000000000000000000000000000000000000000000000000000000000000000000000000000000000000000000000000000000, 61324373499879128490286065261412937757000000000000000000000000000000000000000000000000000000000000000000000000000000000000000000000000000000000000],
  [61324373499879128490286065261412937757000000000000000000000000000000000000000000000000000000000000000000000000000000000000000000000000000000000000, -98812729996635546018503606477868396800000000000000000000000000000000000000000000000000000000000000000000000000000000000000000000000000000000000000],
  [-62511643503243582471782458783544540958000000000000000000000000000000000000000000000000000000000000000000000000000000000000000000000000000000000000, 61324373499879128490286065261412937757000000000000000000000000000000000000000000000000000000000000000000000000000000000000000000000000000000000000],
  [61324373499879128490286065261412937757000000000000000000000000000000000000000000000000000000000000000000000000000000000000000000000000000000000000, -62511643503243582471782458783544540958000000000000000000000000000000000000000000000000000000000000000000000000000000000000000000000000000000000000],
  [-62511643503243582471782458783544540958000000000000000000000000000000000000000000000000000000000000000000000000000000000000000000000000000000000000, -98812729996635546018503606477868396800000000000000000000000000000000000000000000000000000000000000000000000000000000000000000000000000000000000000],
  [-98812729996635546018503606477868396800000000000000000000000000000000000000000000000000000000000000000000000000000000000000000000000000000000000000, -62511643503243582471782458783544540958000000000000000000000000000000000000000000000000000000000000000000000000000000000000000000000000000000000000]],
  [9052913214763758579868280475149790587100000000000000000000000000000000000000000000000000000000000000000000000000000000000000000000000000000000000,
  8218584628739789908285983774384634985600000000000000000000000000000000000000000000000000000000000000000000000000000000000000000000000000000000000,
  8218584628739789908285983774384634985600000000000000000000000000000000000000000000000000000000000000000000000000000000000000000000000000000000000,
  8218584628739789908285983774384634985600000000000000000000000000000000000000000000000000000000000000000000000000000000000000000000000000000000000,
  8142366662485071850472760460989223143300000000000000000000000000000000000000000000000000000000000000000000000000000000000000000000000000000000000,
  8142366662485071850472760460989223143300000000000000000000000000000000000000000000000000000000000000000000000000000000000000000000000000000000000,
  8142366662485071850472760460989223143300000000000000000000000000000000000000000000000000000000000000000000000000000000000000000000000000000000000,
  2956326938044880796036437520643872674900000000000000000000000000000000000000000000000000000000000000000000000000000000000000000000000000000000000,
  2956326938044880796036437520643872674900000000000000000000000000000000000000000000000000000000000000000000000000000000000000000000000000000000000,
  2956326938044880796036437520643872674900000000000000000000000000000000000000000000000000000000000000000000000000000000000000000000000000000000000,
  5883681939797619572122270444556541151500000000000000000000000000000000000000000000000000000000000000000000000000000000000000000000000000000000000,
  5883681939797619572122270444556541151500000000000000000000000000000000000000000000000000000000000000000000000000000000000000000000000000000000000,
  5883681939797619572122270444556541151500000000000000000000000000000000000000000000000000000000000000000000000000000000000000000000000000000000000,
  883709262430113785076846357830921817140000000000000000000000000000000000000000000000000000000000000000000000000000000000000000000000000000000000,
  883709262430113785076846357830921817140000000000000000000000000000000000000000000000000000000000000000000000000000000000000000000000000000000000,
  883709262430113785076846357830921817140000000000000000000000000000000000000000000000000000000000000000000000000000000000000000000000000000000000,
  5194866659655431664060458369406688097700000000000000000000000000000000000000000000000000000000000000000000000000000000000000000000000000000000000,
  5194866659655431664060458369406688097700000000000000000000000000000000000000000000000000000000000000000000000000000000000000000000000000000000000,
  5194866659655431664060458369406688097700000000000000000000000000000000000000000000000000000000000000000000000000000000000000000000000000000000000,
  3787654492883139793909242761341881802800000000000000000000000000000000000000000000000000000000000000000000000000000000000000000000000000000000000,
  3787654492883139793909242761341881802800000000000000000000000000000000000000000000000000000000000000000000000000000000000000000000000000000000000,
  3787654492883139793909242761341881802800000000000000000000000000000000000000000000000000000000000000000000000000000000000000000000000000000000000,
  3787654492883139793909242761341881802800000000000000000000000000000000000000000000000000000000000000000000000000000000000000000000000000000000000,
  3787654492883139793909242761341881802800000000000000000000000000000000000000000000000000000000000000000000000000000000000000000000000000000000000,
  3787654492883139793909242761341881802800000000000000000000000000000000000000000000000000000000000000000000000000000000000000000000000000000000000,
  330893342967009638479162789620443082290000000000000000000000000000000000000000000000000000000000000000000000000000000000000000000000000000000000,
  330893342967009638479162789620443082290000000000000000000000000000000000000000000000000000000000000000000000000000000000000000000000000000000000,
  330893342967009638479162789620443082290000000000000000000000000000000000000000000000000000000000000000000000000000000000000000000000000000000000,
  330893342967009638479162789620443082290000000000000000000000000000000000000000000000000000000000000000000000000000000000000000000000000000000000,
  330893342967009638479162789620443082290000000000000000000000000000000000000000000000000000000000000000000000000000000000000000000000000000000000,
  330893342967009638479162789620443082290000000000000000000000000000000000000000000000000000000000000000000000000000000000000000000000000000000000,
  3001720356857161216513696452171494994100000000000000000000000000000000000000000000000000000000000000000000000000000000000000000000000000000000000,
  3001720356857161216513696452171494994100000000000000000000000000000000000000000000000000000000000000000000000000000000000000000000000000000000000,
  3001720356857161216513696452171494994100000000000000000000000000000000000000000000000000000000000000000000000000000000000000000000000000000000000,
  3001720356857161216513696452171494994100000000000000000000000000000000000000000000000000000000000000000000000000000000000000000000000000000000000,
  3001720356857161216513696452171494994100000000000000000000000000000000000000000000000000000000000000000000000000000000000000000000000000000000000,
  3001720356857161216513696452171494994100000000000000000000000000000000000000000000000000000000000000000000000000000000000000000000000000000000000,
  1589518786678499762119919621810809351600000000000000000000000000000000000000000000000000000000000000000000000000000000000000000000000000000000000,
  1589518786678499762119919621810809351600000000000000000000000000000000000000000000000000000000000000000000000000000000000000000000000000000000000,
  1589518786678499762119919621810809351600000000000000000000000000000000000000000000000000000000000000000000000000000000000000000000000000000000000,
  1589518786678499762119919621810809351600000000000000000000000000000000000000000000000000000000000000000000000000000000000000000000000000000000000,
  1589518786678499762119919621810809351600000000000000000000000000000000000000000000000000000000000000000000000000000000000000000000000000000000000,
  1589518786678499762119919621810809351600000000000000000000000000000000000000000000000000000000000000000000000000000000000000000000000000000000000,
  6396722015874013756962812328786622948400000000000000000000000000000000000000000000000000000000000000000000000000000000000000000000000000000000000,
  6396722015874013756962812328786622948400000000000000000000000000000000000000000000000000000000000000000000000000000000000000000000000000000000000,
  6396722015874013756962812328786622948400000000000000000000000000000000000000000000000000000000000000000000000000000000000000000000000000000000000,
  6396722015874013756962812328786622948400000000000000000000000000000000000000000000000000000000000000000000000000000000000000000000000000000000000,
  6396722015874013756962812328786622948400000000000000000000000000000000000000000000000000000000000000000000000000000000000000000000000000000000000,
  6396722015874013756962812328786622948400000000000000000000000000000000000000000000000000000000000000000000000000000000000000000000000000000000000,
  1078237423369762280676407503171175121200000000000000000000000000000000000000000000000000000000000000000000000000000000000000000000000000000000000,
  1078237423369762280676407503171175121200000000000000000000000000000000000000000000000000000000000000000000000000000000000000000000000000000000000,
  1078237423369762280676407503171175121200000000000000000000000000000000000000000000000000000000000000000000000000000000000000000000000000000000000,
  1078237423369762280676407503171175121200000000000000000000000000000000000000000000000000000000000000000000000000000000000000000000000000000000000,
  1078237423369762280676407503171175121200000000000000000000000000000000000000000000000000000000000000000000000000000000000000000000000000000000000,
  1078237423369762280676407503171175121200000000000000000000000000000000000000000000000000000000000000000000000000000000000000000000000000000000000]⟩

/-- The rule of order 17 in `WitherdenVincent2015_Tri`, src/quadrules/WitherdenVincent2015_Tri.cpp lines 554-644. -/
def tri17 : Raw := ⟨17, 40, [
  [-1657931112768015967897541672560007667900, -6684137774463968064204916654879984664100],
  [-6684137774463968064204916654879984664100, -1657931112768015967897541672560007667900],
  [-1657931112768015967897541672560007667900, -1657931112768015967897541672560007667900],
  [-9704890166784920931936916413984093981600, 9409780333569841863873832827968187963100],
  [9409780333569841863873832827968187963100, -9704890166784920931936916413984093981600],
  [-9704890166784920931936916413984093981600, -9704890166784920931936916413984093981600],
  [-688042567622193962082168183061245425160, -8623914864755612075835663633877509149700],
  [-8623914864755612075835663633877509149700, -688042567622193962082168183061245425160],
  [-688042567622193962082168183061245425160, -688042567622193962082168183061245425160],
  [-6392837674672587596283138555412391221300, 2785675349345175192566277110824782442700],
  [2785675349345175192566277110824782442700, -6392837674672587596283138555412391221300],
  [-6392837674672587596283138555412391221300, -6392837674672587596283138555412391221300],
  [-8666918730408061404864665032030023060100, 7333837460816122809729330064060046120200],
  [7333837460816122809729330064060046120200, -8666918730408061404864665032030023060100],
  [-8666918730408061404864665032030023060100, -8666918730408061404864665032030023060100],
  [-4285869951268267439963242425106159582100, -1428260097463465120073515149787680835800],
  [-1428260097463465120073515149787680835800, -4285869951268267439963242425106159582100],
  [-4285869951268267439963242425106159582100, -4285869951268267439963242425106159582100],
  [-9679647152757614063151853757334704269300, 6495801403301760488685812163616402457000],
  [6495801403301760488685812163616402457000, -9679647152757614063151853757334704269300],
  [-6816154250544146425533958406281698187800, 6495801403301760488685812163616402457000],
  [6495801403301760488685812163616402457000, -6816154250544146425533958406281698187800],
  [-6816154250544146425533958406281698187800, -9679647152757614063151853757334704269300],
  [-9679647152757614063151853757334704269300, -6816154250544146425533958406281698187800],
  [-3874368165076269169293810122902532548500, 2527380607729045241374446055956246503700],
  [2527380607729045241374446055956246503700, -3874368165076269169293810122902532548500],
  [-8653012442652776072080635933053713955200, 2527380607729045241374446055956246503700],
  [2527380607729045241374446055956246503700, -8653012442652776072080635933053713955200],
  [-8653012442652776072080635933053713955200, -3874368165076269169293810122902532548500],
  [-3874368165076269169293810122902532548500, -8653012442652776072080635933053713955200],
  [-9735406544798262133859665733017888260600, 1425897358893681037012982233919171948400],
  [1425897358893681037012982233919171948400, -9735406544798262133859665733017888260600],
  [-1690490814095418903153316500901283687800, 1425897358893681037012982233919171948400],
  [1425897358893681037012982233919171948400, -1690490814095418903153316500901283687800],
  [-1690490814095418903153316500901283687800, -9735406544798262133859665733017888260600],
  [-9735406544798262133859665733017888260600, -1690490814095418903153316500901283687800],
  [-8439153188634351516573382589613737697800, 5064702918729162377928547982287197986900],
  [5064702918729162377928547982287197986900, -8439153188634351516573382589613737697800],
  [-6625549730094810861355165392673460289100, 5064702918729162377928547982287197986900],
  [5064702918729162377928547982287197986900, -6625549730094810861355165392673460289100],
  [-6625549730094810861355165392673460289100, -8439153188634351516573382589613737697800],
  [-8439153188634351516573382589613737697800, -6625549730094810861355165392673460289100],
  [-9737282583319946100667927211400606547000, 4301445182212849230318492407527260439900],
  [4301445182212849230318492407527260439900, -9737282583319946100667927211400606547000],
  [-4564162598892903129650565196126653892900, 4301445182212849230318492407527260439900],
  [4301445182212849230318492407527260439900, -4564162598892903129650565196126653892900],
  [-4564162598892903129650565196126653892900, -9737282583319946100667927211400606547000],
  [-9737282583319946100667927211400606547000, -4564162598892903129650565196126653892900],
  [-9768496481936387693039157631967710822000, 8318387065956339167548644782782866792400],
  [8318387065956339167548644782782866792400, -9768496481936387693039157631967710822000],
  [-8549890584019951474509487150815155970400, 8318387065956339167548644782782866792400],
  [8318387065956339167548644782782866792400, -8549890584019951474509487150815155970400],
  [-8549890584019951474509487150815155970400, -9768496481936387693039157631967710822000],
  [-9768496481936387693039157631967710822000, -8549890584019951474509487150815155970400],
  [-6849890441462601899447781689525985713500, 865511591923195482092967993804846675750],
  [865511591923195482092967993804846675750, -6849890441462601899447781689525985713500],
  [-4015621150460593582645186304278860962200, 865511591923195482092967993804846675750],
  [865511591923195482092967993804846675750, -4015621150460593582645186304278860962200],
  [-4015621150460593582645186304278860962200, -6849890441462601899447781689525985713500],
  [-6849890441462601899447781689525985713500, -4015621150460593582645186304278860962200]],
  [546218530562042150475576951080594846850,
  546218530562042150475576951080594846850,
  546218530562042150475576951080594846850,
  55477751552752843092249851846592899136,
  55477751552752843092249851846592899136,
  55477751552752843092249851846592899136,
  500389019009947155941150603527654545350,
  500389019009947155941150603527654545350,
  500389019009947155941150603527654545350,
  526252611760359699120688303471593054570,
  526252611760359699120688303471593054570,
  526252611760359699120688303471593054570,
  249180016046108841905000857308273670330,
  249180016046108841905000857308273670330,
  249180016046108841905000857308273670330,
  754324743055905600328576119359104595170,
  754324743055905600328576119359104595170,
  754324743055905600328576119359104595170,
  159566004118591866485652442901310498090,
  159566004118591866485652442901310498090,
  159566004118591866485652442901310498090,
  159566004118591866485652442901310498090,
  159566004118591866485652442901310498090,
  159566004118591866485652442901310498090,
  449755450933821328846443115603380059540,
  449755450933821328846443115603380059540,
  449755450933821328846443115603380059540,
  449755450933821328846443115603380059540,
  449755450933821328846443115603380059540,
  449755450933821328846443115603380059540,
  207968799116790729272571307561765479790,
  207968799116790729272571307561765479790,
  207968799116790729272571307561765479790,
  207968799116790729272571307561765479790,
  207968799116790729272571307561765479790,
  207968799116790729272571307561765479790,
  411157966409090349920116591628438482610,
  411157966409090349920116591628438482610,
  411157966409090349920116591628438482610,
  411157966409090349920116591628438482610,
  411157966409090349920116591628438482610,
  411157966409090349920116591628438482610,
  173844290020023831375478508809914732890,
  173844290020023831375478508809914732890,
  173844290020023831375478508809914732890,
  173844290020023831375478508809914732890,
  173844290020023831375478508809914732890,
  173844290020023831375478508809914732890,
  91686968034717336858992147415592016162,
  91686968034717336858992147415592016162,
  91686968034717336858992147415592016162,
  91686968034717336858992147415592016162,
  91686968034717336858992147415592016162,
  91686968034717336858992147415592016162,
  523432518706739745142457876116025258560,
  523432518706739745142457876116025258560,
  523432518706739745142457876116025258560,
  523432518706739745142457876116025258560,
  523432518706739745142457876116025258560,
  523432518706739745142457876116025258560]⟩

/-- The rule of order 18 in `WitherdenVincent2015_Tri`, src/quadrules/WitherdenVincent2015_Tri.cpp lines 645-746. -/
def tri18 : Raw := ⟨18, 40, [
  [-3333333333333333333333333333333333333300, -3333333333333333333333333333333333333300],
  [-2000887438648475366392677564603872234700, -5998225122703049267214644870792255530500],
  [-5998225122703049267214644870792255530500, -2000887438648475366392677564603872234700],
  [-2000887438648475366392677564603872234700, -2000887438648475366392677564603872234700],
  [-248393968502608753736289345997935446570, -9503212062994782492527421308004129106900],
  [-9503212062994782492527421308004129106900, -248393968502608753736289345997935446570],
  [-248393968502608753736289345997935446570, -248393968502608753736289345997935446570],
  [-763809871871015372625741244163258642430, -8472380256257969254748517511673482715100],
  [-8472380256257969254748517511673482715100, -763809871871015372625741244163258642430],
  [-763809871871015372625741244163258642430, -763809871871015372625741244163258642430],
  [-5154705949714560755901215334057210487800, 309411899429121511802430668114420975650],
  [309411899429121511802430668114420975650, -5154705949714560755901215334057210487800],
  [-5154705949714560755901215334057210487800, -5154705949714560755901215334057210487800],
  [-9223394878226288105795583594017382088200, 8446789756452576211591167188034764176400],
  [8446789756452576211591167188034764176400, -9223394878226288105795583594017382088200],
  [-9223394878226288105795583594017382088200, -9223394878226288105795583594017382088200],
  [-8161045157567136065282312109966369308800, 6322090315134272130564624219932738617700],
  [6322090315134272130564624219932738617700, -8161045157567136065282312109966369308800],
  [-8161045157567136065282312109966369308800, -8161045157567136065282312109966369308800],
  [-9083901682802784377428158149880845209100, 5407447524293504264586199150116842454800],
  [5407447524293504264586199150116842454800, -9083901682802784377428158149880845209100],
  [-6323545841490719887158041000235997245700, 5407447524293504264586199150116842454800],
  [5407447524293504264586199150116842454800, -6323545841490719887158041000235997245700],
  [-6323545841490719887158041000235997245700, -9083901682802784377428158149880845209100],
  [-9083901682802784377428158149880845209100, -6323545841490719887158041000235997245700],
  [-5873014851323241331613096296488451497800, 3419079703884690263223113955340021876000],
  [3419079703884690263223113955340021876000, -5873014851323241331613096296488451497800],
  [-7546064852561448931610017658851570378200, 3419079703884690263223113955340021876000],
  [3419079703884690263223113955340021876000, -7546064852561448931610017658851570378200],
  [-7546064852561448931610017658851570378200, -5873014851323241331613096296488451497800],
  [-5873014851323241331613096296488451497800, -7546064852561448931610017658851570378200],
  [-9922047779330532349261566173143786759600, 2008379092685138295317259362408018946300],
  [2008379092685138295317259362408018946300, -9922047779330532349261566173143786759600],
  [-2086331313354605946055693189264232186700, 2008379092685138295317259362408018946300],
  [2008379092685138295317259362408018946300, -2086331313354605946055693189264232186700],
  [-2086331313354605946055693189264232186700, -9922047779330532349261566173143786759600],
  [-9922047779330532349261566173143786759600, -2086331313354605946055693189264232186700],
  [-9730759665171100215712797898074234994400, 7566843789350434355117007033556566479000],
  [7566843789350434355117007033556566479000, -9730759665171100215712797898074234994400],
  [-7836084124179334139404209135482331484700, 7566843789350434355117007033556566479000],
  [7566843789350434355117007033556566479000, -7836084124179334139404209135482331484700],
  [-7836084124179334139404209135482331484700, -9730759665171100215712797898074234994400],
  [-9730759665171100215712797898074234994400, -7836084124179334139404209135482331484700],
  [-9194794330601838737112327951949085121500, 2799761840094291898220925866763795523300],
  [2799761840094291898220925866763795523300, -9194794330601838737112327951949085121500],
  [-3604967509492453161108597914814710401800, 2799761840094291898220925866763795523300],
  [2799761840094291898220925866763795523300, -3604967509492453161108597914814710401800],
  [-3604967509492453161108597914814710401800, -9194794330601838737112327951949085121500],
  [-9194794330601838737112327951949085121500, -3604967509492453161108597914814710401800],
  [-9894033296267804693984257982075294127900, 5178589597103969880902989076687225194200],
  [5178589597103969880902989076687225194200, -9894033296267804693984257982075294127900],
  [-5284556300836165186918731094611931066400, 5178589597103969880902989076687225194200],
  [5178589597103969880902989076687225194200, -5284556300836165186918731094611931066400],
  [-5284556300836165186918731094611931066400, -9894033296267804693984257982075294127900],
  [-9894033296267804693984257982075294127900, -5284556300836165186918731094611931066400],
  [-9989032799159153620151639804506260133400, 9447214579255913335635972601163455355400],
  [9447214579255913335635972601163455355400, -9989032799159153620151639804506260133400],
  [-9458181780096759715484332796657195222000, 9447214579255913335635972601163455355400],
  [9447214579255913335635972601163455355400, -9458181780096759715484332796657195222000],
  [-9458181780096759715484332796657195222000, -9989032799159153620151639804506260133400],
  [-9989032799159153620151639804506260133400, -9458181780096759715484332796657195222000],
  [-7588246096721507136464298935787124941400, 918375507723891996173880421518543327850],
  [918375507723891996173880421518543327850, -7588246096721507136464298935787124941400],
  [-3330129411002384859709581485731418386500, 918375507723891996173880421518543327850],
  [918375507723891996173880421518543327850, -3330129411002384859709581485731418386500],
  [-3330129411002384859709581485731418386500, -7588246096721507136464298935787124941400],
  [-7588246096721507136464298935787124941400, -3330129411002384859709581485731418386500]],
  [727114706028533323359884029761513204160,
  666089400667802705708310205132498774370,
  666089400667802705708310205132498774370,
  666089400667802705708310205132498774370,
  240932952679994202368535813068038693780,
  240932952679994202368535813068038693780,
  240932952679994202368535813068038693780,
  378983430135577320521847245035827608190,
  378983430135577320521847245035827608190,
  378983430135577320521847245035827608190,
  729501788178872740682892959172946904310,
  729501788178872740682892959172946904310,
  729501788178872740682892959172946904310,
  142586520394379413555283096109389910630,
  142586520394379413555283096109389910630,
  142586520394379413555283096109389910630,
  331183199040064983361161119792618193830,
  331183199040064983361161119792618193830,
  331183199040064983361161119792618193830,
  275192324698844104758390464183697733900,
  275192324698844104758390464183697733900,
  275192324698844104758390464183697733900,
  275192324698844104758390464183697733900,
  275192324698844104758390464183697733900,
  275192324698844104758390464183697733900,
  475638218003056599031833942231759545680,
  475638218003056599031833942231759545680,
  475638218003056599031833942231759545680,
  475638218003056599031833942231759545680,
  475638218003056599031833942231759545680,
  475638218003056599031833942231759545680,
  90610690045141307984091089591295584041,
  90610690045141307984091089591295584041,
  90610690045141307984091089591295584041,
  90610690045141307984091089591295584041,
  90610690045141307984091089591295584041,
  90610690045141307984091089591295584041,
  136802202392143629804555160766495752260,
  136802202392143629804555160766495752260,
  136802202392143629804555160766495752260,
  136802202392143629804555160766495752260,
  136802202392143629804555160766495752260,
  136802202392143629804555160766495752260,
  354949782040408102327899244616909673460,
  354949782040408102327899244616909673460,
  354949782040408102327899244616909673460,
  354949782040408102327899244616909673460,
  354949782040408102327899244616909673460,
  354949782040408102327899244616909673460,
  100213217491594434077412713938820529560,
  100213217491594434077412713938820529560,
  100213217491594434077412713938820529560,
  100213217491594434077412713938820529560,
  100213217491594434077412713938820529560,
  100213217491594434077412713938820529560,
  24458962539221795584360481949957423674,
  24458962539221795584360481949957423674,
  24458962539221795584360481949957423674,
  24458962539221795584360481949957423674,
  24458962539221795584360481949957423674,
  24458962539221795584360481949957423674,
  509643506236488789439127678605151514180,
  509643506236488789439127678605151514180,
  509643506236488789439127678605151514180,
  509643506236488789439127678605151514180,
  509643506236488789439127678605151514180,
  509643506236488789439127678605151514180]⟩

/-- The rule of order 19 in `WitherdenVincent2015_Tri`, src/quadrules/WitherdenVincent2015_Tri.cpp lines 747-857. -/
def tri19 : Raw := ⟨19, 40, [
  [-3333333333333333333333333333333333333300, -3333333333333333333333333333333333333300],
  [-8949522192975820659704869879551266229300, 7899044385951641319409739759102532458500],
  [7899044385951641319409739759102532458500, -8949522192975820659704869879551266229300],
  [-8949522192975820659704869879551266229300, -8949522192975820659704869879551266229300],
  [-149746499173262610062046728207505243680, -9700507001653474779875906543584989512600],
  [-9700507001653474779875906543584989512600, -149746499173262610062046728207505243680],
  [-149746499173262610062046728207505243680, -149746499173262610062046728207505243680],
  [-7771022533539572470945894085905713502400, 5542045067079144941891788171811427004800],
  [5542045067079144941891788171811427004800, -7771022533539572470945894085905713502400],
  [-7771022533539572470945894085905713502400, -7771022533539572470945894085905713502400],
  [-816115979209126850596121420983740440800, -8367768041581746298807757158032519118400],
  [-8367768041581746298807757158032519118400, -816115979209126850596121420983740440800],
  [-816115979209126850596121420983740440800, -816115979209126850596121420983740440800],
  [-1920605548961976067839249829276409308400, -6158788902076047864321500341447181383100],
  [-6158788902076047864321500341447181383100, -1920605548961976067839249829276409308400],
  [-1920605548961976067839249829276409308400, -1920605548961976067839249829276409308400],
  [-6436597904364713783144563179985404279900, 2873195808729427566289126359970808559800],
  [2873195808729427566289126359970808559800, -6436597904364713783144563179985404279900],
  [-6436597904364713783144563179985404279900, -6436597904364713783144563179985404279900],
  [-9767210776324211061580266001107452364900, 9534421552648422123160532002214904729700],
  [9534421552648422123160532002214904729700, -9767210776324211061580266001107452364900],
  [-9767210776324211061580266001107452364900, -9767210776324211061580266001107452364900],
  [-4896767341727846049825011019579134027900, -206465316544307900349977960841731944240],
  [-206465316544307900349977960841731944240, -4896767341727846049825011019579134027900],
  [-4896767341727846049825011019579134027900, -4896767341727846049825011019579134027900],
  [-7386046474639351908607821153057447352100, 6603129288005507482114383730999627094000],
  [6603129288005507482114383730999627094000, -7386046474639351908607821153057447352100],
  [-9217082813366155573506562577942179741900, 6603129288005507482114383730999627094000],
  [6603129288005507482114383730999627094000, -9217082813366155573506562577942179741900],
  [-9217082813366155573506562577942179741900, -7386046474639351908607821153057447352100],
  [-7386046474639351908607821153057447352100, -9217082813366155573506562577942179741900],
  [-3773647403809174944497387004260308922500, 1187396114406018283177075967130279684200],
  [1187396114406018283177075967130279684200, -3773647403809174944497387004260308922500],
  [-7413748710596843338679688962869970761700, 1187396114406018283177075967130279684200],
  [1187396114406018283177075967130279684200, -7413748710596843338679688962869970761700],
  [-7413748710596843338679688962869970761700, -3773647403809174944497387004260308922500],
  [-3773647403809174944497387004260308922500, -7413748710596843338679688962869970761700],
  [-9958621482067903847797885962811890420700, 2666265862575682660937353179820011382500],
  [2666265862575682660937353179820011382500, -9958621482067903847797885962811890420700],
  [-2707644380507778813139467217008120961800, 2666265862575682660937353179820011382500],
  [2666265862575682660937353179820011382500, -2707644380507778813139467217008120961800],
  [-2707644380507778813139467217008120961800, -9958621482067903847797885962811890420700],
  [-9958621482067903847797885962811890420700, -2707644380507778813139467217008120961800],
  [-8508794107967466429258697491746964318600, 4080096399320842197617583815633184537400],
  [4080096399320842197617583815633184537400, -8508794107967466429258697491746964318600],
  [-5571302291353375768358886323886220218800, 4080096399320842197617583815633184537400],
  [4080096399320842197617583815633184537400, -5571302291353375768358886323886220218800],
  [-5571302291353375768358886323886220218800, -8508794107967466429258697491746964318600],
  [-8508794107967466429258697491746964318600, -5571302291353375768358886323886220218800],
  [-9899854234852910177330178112348342213600, 7051339087537783993565066303480098615400],
  [7051339087537783993565066303480098615400, -9899854234852910177330178112348342213600],
  [-7151484852684873816234888191131756401700, 7051339087537783993565066303480098615400],
  [7051339087537783993565066303480098615400, -7151484852684873816234888191131756401700],
  [-7151484852684873816234888191131756401700, -9899854234852910177330178112348342213600],
  [-9899854234852910177330178112348342213600, -7151484852684873816234888191131756401700],
  [-9182239776079662477217442089424107674100, 2101679581374159282256988383778649147800],
  [2101679581374159282256988383778649147800, -9182239776079662477217442089424107674100],
  [-2919439805294496805039546294354541473800, 2101679581374159282256988383778649147800],
  [2101679581374159282256988383778649147800, -2919439805294496805039546294354541473800],
  [-2919439805294496805039546294354541473800, -9182239776079662477217442089424107674100],
  [-9182239776079662477217442089424107674100, -2919439805294496805039546294354541473800],
  [-5162108420788408628439420056137172353400, 4863627379148727194931412334629960126200],
  [4863627379148727194931412334629960126200, -5162108420788408628439420056137172353400],
  [-9701518958360318566491992278492787772900, 4863627379148727194931412334629960126200],
  [4863627379148727194931412334629960126200, -9701518958360318566491992278492787772900],
  [-9701518958360318566491992278492787772900, -5162108420788408628439420056137172353400],
  [-5162108420788408628439420056137172353400, -9701518958360318566491992278492787772900],
  [-8798274493553866040152075080842841382600, 8602753977536102933125760501560381002900],
  [8602753977536102933125760501560381002900, -8798274493553866040152075080842841382600],
  [-9804479483982236892973685420717539620300, 8602753977536102933125760501560381002900],
  [8602753977536102933125760501560381002900, -9804479483982236892973685420717539620300],
  [-9804479483982236892973685420717539620300, -8798274493553866040152075080842841382600],
  [-8798274493553866040152075080842841382600, -9804479483982236892973685420717539620300]],
  [689387954080246698120264169137141500210,
  142185131955962610754381949443812225180,
  142185131955962610754381949443812225180,
  142185131955962610754381949443812225180,
  206435102858885633793752715112996957680,
  206435102858885633793752715112996957680,
  206435102858885633793752715112996957680,
  304687021860365991624316179706153645180,
  304687021860365991624316179706153645180,
  304687021860365991624316179706153645180,
  459671800534832124606203375455940401280,
  459671800534832124606203375455940401280,
  459671800534832124606203375455940401280,
  630750697863099501530503897632872298580,
  630750697863099501530503897632872298580,
  630750697863099501530503897632872298580,
  493038296963817065810271603280873315700,
  493038296963817065810271603280873315700,
  493038296963817065810271603280873315700,
  35306455528856953194485177898948363749,
  35306455528856953194485177898948363749,
  35306455528856953194485177898948363749,
  635060387320061539418974449993407250610,
  635060387320061539418974449993407250610,
  635060387320061539418974449993407250610,
  193909689737100915978594664571338825810,
  193909689737100915978594664571338825810,
  193909689737100915978594664571338825810,
  193909689737100915978594664571338825810,
  193909689737100915978594664571338825810,
  193909689737100915978594664571338825810,
  526926439547814663703629976900645963620,
  526926439547814663703629976900645963620,
  526926439547814663703629976900645963620,
  526926439547814663703629976900645963620,
  526926439547814663703629976900645963620,
  526926439547814663703629976900645963620,
  65641531036716385118906834623328599920,
  65641531036716385118906834623328599920,
  65641531036716385118906834623328599920,
  65641531036716385118906834623328599920,
  65641531036716385118906834623328599920,
  65641531036716385118906834623328599920,
  362158898624249001293051273971333992590,
  362158898624249001293051273971333992590,
  362158898624249001293051273971333992590,
  362158898624249001293051273971333992590,
  362158898624249001293051273971333992590,
  362158898624249001293051273971333992590,
  58526302069404008122936576981139743993,
  58526302069404008122936576981139743993,
  58526302069404008122936576981139743993,
  58526302069404008122936576981139743993,
  58526302069404008122936576981139743993,
  58526302069404008122936576981139743993,
  322043255280482164199840269652875822190,
  322043255280482164199840269652875822190,
  322043255280482164199840269652875822190,
  322043255280482164199840269652875822190,
  322043255280482164199840269652875822190,
  322043255280482164199840269652875822190,
  169117749990729936350421409071818871120,
  169117749990729936350421409071818871120,
  169117749990729936350421409071818871120,
  169117749990729936350421409071818871120,
  169117749990729936350421409071818871120,
  169117749990729936350421409071818871120,
  66544027257187765179463625108825701742,
  66544027257187765179463625108825701742,
  66544027257187765179463625108825701742,
  66544027257187765179463625108825701742,
  66544027257187765179463625108825701742,
  66544027257187765179463625108825701742]⟩

/-- The rule of order 20 in `WitherdenVincent2015_Tri`, src/quadrules/WitherdenVincent2015_Tri.cpp lines 858-977. -/
def tri20 : Raw := ⟨20, 40, [
  [-3333333333333333333333333333333333333300, -3333333333333333333333333333333333333300],
  [-4908414646533217752302947037452307231500, -183170706933564495394105925095385536990],
  [-183170706933564495394105925095385536990, -4908414646533217752302947037452307231500],
  [-4908414646533217752302947037452307231500, -4908414646533217752302947037452307231500],
  [-9780477179432044719207039762822403750700, 9560954358864089438414079525644807501500],
  [9560954358864089438414079525644807501500, -9780477179432044719207039762822403750700],
  [-9780477179432044719207039762822403750700, -9780477179432044719207039762822403750700],
  [-7812328065765708059662550502003327558900, 5624656131531416119325101004006655117800],
  [5624656131531416119325101004006655117800, -7812328065765708059662550502003327558900],
  [-7812328065765708059662550502003327558900, -7812328065765708059662550502003327558900],
  [-6274100045109181144565349838847512910500, 2548200090218362289130699677695025821000],
  [2548200090218362289130699677695025821000, -6274100045109181144565349838847512910500],
  [-6274100045109181144565349838847512910500, -6274100045109181144565349838847512910500],
  [-1088978860881503696255554431315711846700, -7822042278236992607488891137368576306700],
  [-7822042278236992607488891137368576306700, -1088978860881503696255554431315711846700],
  [-1088978860881503696255554431315711846700, -1088978860881503696255554431315711846700],
  [-9253782388022306120129925674255675561200, 8507564776044612240259851348511351122400],
  [8507564776044612240259851348511351122400, -9253782388022306120129925674255675561200],
  [-9253782388022306120129925674255675561200, -9253782388022306120129925674255675561200],
  [-2131493043658002826420725129934448170400, -5737013912683994347158549740131103659300],
  [-5737013912683994347158549740131103659300, -2131493043658002826420725129934448170400],
  [-2131493043658002826420725129934448170400, -2131493043658002826420725129934448170400],
  [-475087769190019735792962555348180880610, -9049824461619960528414074889303638238800],
  [-9049824461619960528414074889303638238800, -475087769190019735792962555348180880610],
  [-475087769190019735792962555348180880610, -475087769190019735792962555348180880610],
  [-9848584389906069434735330829428769080200, 6665910236764724943443023800861731924100],
  [6665910236764724943443023800861731924100, -9848584389906069434735330829428769080200],
  [-6817325846858655508707692971432962843800, 6665910236764724943443023800861731924100],
  [6665910236764724943443023800861731924100, -6817325846858655508707692971432962843800],
  [-6817325846858655508707692971432962843800, -9848584389906069434735330829428769080200],
  [-9848584389906069434735330829428769080200, -6817325846858655508707692971432962843800],
  [-9068792701846713669724608907894638870700, 5098430057270950102124174847737658903000],
  [5098430057270950102124174847737658903000, -9068792701846713669724608907894638870700],
  [-6029637355424236432399565939843020032300, 5098430057270950102124174847737658903000],
  [5098430057270950102124174847737658903000, -6029637355424236432399565939843020032300],
  [-6029637355424236432399565939843020032300, -9068792701846713669724608907894638870700],
  [-9068792701846713669724608907894638870700, -6029637355424236432399565939843020032300],
  [-8718188287831318799002686647643396245700, 8621089535678843733235383616065120710900],
  [8621089535678843733235383616065120710900, -8718188287831318799002686647643396245700],
  [-9902901247847524934232696968421724465200, 8621089535678843733235383616065120710900],
  [8621089535678843733235383616065120710900, -9902901247847524934232696968421724465200],
  [-9902901247847524934232696968421724465200, -8718188287831318799002686647643396245700],
  [-8718188287831318799002686647643396245700, -9902901247847524934232696968421724465200],
  [-8900250417140263787315455029683704579200, 2237554070948513998762953076432854303200],
  [2237554070948513998762953076432854303200, -8900250417140263787315455029683704579200],
  [-3337303653808250211447498046749149724000, 2237554070948513998762953076432854303200],
  [2237554070948513998762953076432854303200, -3337303653808250211447498046749149724000],
  [-3337303653808250211447498046749149724000, -8900250417140263787315455029683704579200],
  [-8900250417140263787315455029683704579200, -3337303653808250211447498046749149724000],
  [-8000954074237226892341843533057676038000, 7233680378729734984889616484114646011200],
  [7233680378729734984889616484114646011200, -8000954074237226892341843533057676038000],
  [-9232726304492508092547772951056969973100, 7233680378729734984889616484114646011200],
  [7233680378729734984889616484114646011200, -9232726304492508092547772951056969973100],
  [-9232726304492508092547772951056969973100, -8000954074237226892341843533057676038000],
  [-8000954074237226892341843533057676038000, -9232726304492508092547772951056969973100],
  [-7875455905594599152748913958922151038800, 3563314757792711092159954599912319312400],
  [3563314757792711092159954599912319312400, -7875455905594599152748913958922151038800],
  [-5687858852198111939411040640990168273600, 3563314757792711092159954599912319312400],
  [3563314757792711092159954599912319312400, -5687858852198111939411040640990168273600],
  [-5687858852198111939411040640990168273600, -7875455905594599152748913958922151038800],
  [-7875455905594599152748913958922151038800, -5687858852198111939411040640990168273600],
  [-1599524823675518407071141661054621128000, 1402893857819467195500916946480886286000],
  [1402893857819467195500916946480886286000, -1599524823675518407071141661054621128000],
  [-9803369034143948788429775285426265158000, 1402893857819467195500916946480886286000],
  [1402893857819467195500916946480886286000, -9803369034143948788429775285426265158000],
  [-9803369034143948788429775285426265158000, -1599524823675518407071141661054621128000],
  [-1599524823675518407071141661054621128000, -9803369034143948788429775285426265158000],
  [-3642797523284559680480646567394807035600, 846636083448561708597616888026463366410],
  [846636083448561708597616888026463366410, -3642797523284559680480646567394807035600],
  [-7203838560164002028116970320631656330800, 846636083448561708597616888026463366410],
  [846636083448561708597616888026463366410, -7203838560164002028116970320631656330800],
  [-7203838560164002028116970320631656330800, -3642797523284559680480646567394807035600],
  [-3642797523284559680480646567394807035600, -7203838560164002028116970320631656330800],
  [-9785255742879778253389508779842084458100, 4173627514406473556639778168960820322900],
  [4173627514406473556639778168960820322900, -9785255742879778253389508779842084458100],
  [-4388371771526695303250269389118735864800, 4173627514406473556639778168960820322900],
  [4173627514406473556639778168960820322900, -4388371771526695303250269389118735864800],
  [-4388371771526695303250269389118735864800, -9785255742879778253389508779842084458100],
  [-9785255742879778253389508779842084458100, -4388371771526695303250269389118735864800]],
  [556404428058124636315667882538980515320,
  563328052300809901286417841247306993600,
  563328052300809901286417841247306993600,
  563328052300809901286417841247306993600,
  31953631642664794478945847330657770722,
  31953631642664794478945847330657770722,
  31953631642664794478945847330657770722,
  313209231042981336844070036488942034470,
  313209231042981336844070036488942034470,
  313209231042981336844070036488942034470,
  366938518970116579192528541181380435370,
  366938518970116579192528541181380435370,
  366938518970116579192528541181380435370,
  378095997329297907473141626407995967210,
  378095997329297907473141626407995967210,
  378095997329297907473141626407995967210,
  86451016426623101046927221578067745080,
  86451016426623101046927221578067745080,
  86451016426623101046927221578067745080,
  551522025162818360535508908632773930790,
  551522025162818360535508908632773930790,
  551522025162818360535508908632773930790,
  284073012136337619676804659244792903820,
  284073012136337619676804659244792903820,
  284073012136337619676804659244792903820,
  88115896742339902561312708157853846482,
  88115896742339902561312708157853846482,
  88115896742339902561312708157853846482,
  88115896742339902561312708157853846482,
  88115896742339902561312708157853846482,
  88115896742339902561312708157853846482,
  239455943158187600805852561449991654930,
  239455943158187600805852561449991654930,
  239455943158187600805852561449991654930,
  239455943158187600805852561449991654930,
  239455943158187600805852561449991654930,
  239455943158187600805852561449991654930,
  45194784085034621179235150583929560485,
  45194784085034621179235150583929560485,
  45194784085034621179235150583929560485,
  45194784085034621179235150583929560485,
  45194784085034621179235150583929560485,
  45194784085034621179235150583929560485,
  346689022688773322487306260580357342210,
  346689022688773322487306260580357342210,
  346689022688773322487306260580357342210,
  346689022688773322487306260580357342210,
  346689022688773322487306260580357342210,
  346689022688773322487306260580357342210,
  165828461104554308510494506356304765980,
  165828461104554308510494506356304765980,
  165828461104554308510494506356304765980,
  165828461104554308510494506356304765980,
  165828461104554308510494506356304765980,
  165828461104554308510494506356304765980,
  308904312883969193774816506508534171830,
  308904312883969193774816506508534171830,
  308904312883969193774816506508534171830,
  308904312883969193774816506508534171830,
  308904312883969193774816506508534171830,
  308904312883969193774816506508534171830,
  147827260010211919128768744527703816900,
  147827260010211919128768744527703816900,
  147827260010211919128768744527703816900,
  147827260010211919128768744527703816900,
  147827260010211919128768744527703816900,
  147827260010211919128768744527703816900,
  467669829273109477301843109377818498140,
  467669829273109477301843109377818498140,
  467669829273109477301843109377818498140,
  467669829273109477301843109377818498140,
  467669829273109477301843109377818498140,
  467669829273109477301843109377818498140,
  143128009538307414597253464311717366630,
  143128009538307414597253464311717366630,
  143128009538307414597253464311717366630,
  143128009538307414597253464311717366630,
  143128009538307414597253464311717366630,
  143128009538307414597253464311717366630]⟩

end Tandem.QuadTable
