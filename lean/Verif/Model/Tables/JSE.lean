import Verif.Model.QuadTable
/-! Generated by tools/gen_tables.py from src/quadrules/JaskowiecSukumar2020.cpp: do not edit. -/
namespace Tandem.QuadTable
set_option maxRecDepth 100000

/-- The rule of order 20 in `JaskowiecSukumar2020`, src/quadrules/JaskowiecSukumar2020.cpp lines 9092-10884. -/
def jS20 : Raw := ⟨20, 68, [
  [5176189099545021902135879427347211609385699309964415637925436364000, 66863367317117925276840899356572002065679967124023019394258269720000, 10847175971303668984075238257576712863350270407418491268378289570000],
  [14452077286491419209889743907617674562326579190909140825700228800000, 31129071192615825770016172613931840733229150854878554971340646020000, 53776378618121893077775519739137860420196956654581667913134711180000],
  [29644080463070355642808287554721282860342662010953157225824120030000, 4673921784084519812768860900477599479968731133210032813878191925000, 18835187253310325740019690852592401200859084269858441690531921340000],
  [14919170047757919540447358061625640989162630418000690908623685180000, 49743346235764864732953799597223213772155426519876128705339738030000, 1456993760690673442063939760187947160775849341882566463473459873000],
  [27314203355898852312406074336087824666312284466738320367338803130000, 59835158081661418749880533214537968654567532867462083350404050660000, 9512437283765904344096868088073949243122145123167814110084807590000],
  [9912346934424947346495062024277539450214384151838513108660742236000, 13053232887409495936682193698238216867532255967001048839175781250000, 73564645041439025535284657792891552068371948214146301989434063500000],
  [9844354027183770708775753473203827456417899672717211154990154506000, 76950124792832964032573714633062621071501469804729719975989674440000, 12516078381943259233583948434133482730101861230454085296680197070000],
  [9534269257726937867068057601891870344467334581898402274933300019000, 9931718088085321298758864905463608693857912972074481533964521063000, 4477772214571750134810450999555370526299241491138952519723996284000],
  [22544356545420746516621381933583787015370076458891565184847805100000, 26918380689116888082252167373716343351390333843145838191821143170000, 45355629148427345902286165339907273808725165771385559888358274300000],
  [29855391335073238106874741097457672722845402001111345548140778990000, 579568929276073180568056535904602435352338359104417625229418330900, 17116837535111310967279729834576186896705785600690433754319179660000],
  [6398041847390389770652793086464924497988963949812881901371783313000, 25383862047982543700719909722580758847293886205080735923839138490000, 67225805710683431746715154431400121079799015011847856587228157470000],
  [1128460748628307005273092160777621501576518415219555853935016217000, 45390368500680609438282578946860335171864464016419976029006024170000, 3705239957106509281623401281765414581171173994096717508665357441000],
  [47732027853594706441819549307721262252347350551887381515889416540000, 1128472166412187770282077572453829561588386721739558849192432359000, 50572432270142591253068888059505657206241262151030716231185563540000],
  [615867295810903027812041565666170937118600383130564562644977036200, 18676974844137067053985218159919291174244448382769237815709339620000, 23932241852285159290358558210946781484118987774207390834824389280000],
  [23776726046946214880550652727699686294703941001652332676411131210000, 9537421495653203442385636854166698551720226169731684896497182453000, 43428990860965653341087605534441721210784935841985370658067671200000],
  [31167532663838405672969589917449919515643558590292130455496754120000, 22151531911484219053467632088005680804145469677702345421681704310000, 46007116229734579683507540584391746976006858204481988531872743790000],
  [12469167755289689380711538121769264161654083626499681286755403620000, 34462290314767636821027322453183640527670698819083156533122829310000, 684749260189407707652856162858487650627012090483109065317583205900],
  [4104972108518968680811113388778155202622568731667482009524877640000, 1006312064617896698845879742513769310639950946170380435226616671000, 91722253230604206302861776183117126936156565675334418958051218180000],
  [47325073086850799205529895454345592693404794178518596823047457400000, 45815128715107286609491158370973661519320366732901660474128525470000, 491428889230014570375098818233470835287935334131386394530306335500],
  [4575710049430664489380008934902454455488168821618665765015418884000, 70762455195466133278270980298602191012124814570372169326986345840000, 23823648354691478244558757978571002016089706093072647120189325730000],
  [21150347128465941899756974230929176296465115378020492322983752760000, 49290484534531717548396431139782160025705868577496950713903751310000, 28513978813983634078400937686936855877658517710768939150863680380000],
  [10775630536867852618841418257536246269711165898008666509855205280000, 16944421044696020788992759947251584119588488458674943055863533890000, 13733644302525216808360365933223855775403013923290872546888600610000],
  [4357758269384519777908492648906892648766600149885623953636203324000, 1203247177307311200057266979958795359624517559352301646794358457000, 1011703544655921697481025963990508150856427994973332497782057953000],
  [59761063529698479447938293784354003595278417498353785228620095680000, 8454755090556031753497487427999843598254002642907995779889183792000, 31052846834231501845585083818786800864562689317594713167542465580000],
  [31363446333873906165292313511540270802336736621624939874289025140000, 5283670158787985031612835813083819012446249815859272970253535337000, 30524836309491641469038067620657544485182928374731386566578179200000],
  [276512639301482955663867095255134355741352156863273362910046298200, 42160159506428342462564108947850380052684266344740111943025924370000, 10635889867594624460126611925678554714297615776925858661324000810000],
  [875722978926302230241720288743815819178853201157369585064182323100, 31409418048092941115548546599322889188960028888837002047266191690000, 5589625283611541770716736938966150233154731250063879149873019425000],
  [683569121471002082214294139136035321046824738763034217924420139300, 58818192014509840695640320161260838064665501689352089938596116110000, 4498077961856312730643176759833353062332790727692819944278987432000],
  [1126992278697366633366425864545882414187047810013598951151737807000, 46263163400578380062536536195922099049101197284773049266252343860000, 45787908956695047261406162781001771680954765836458241018187853160000],
  [519771983115427185928707883832399790228143076774837266371469448000, 14512429511586496823785045898068723150483183515795355742656716890000, 1094538160391803921878429859308846017087402115737417236208363422000],
  [45404489590095893472069044534368895470256452579298720690050644280000, 6513007964232350764092272382431629912273264999479013769549548306000, 47143952974924012982042950780548081918932392150206159923503661460000],
  [9995149034926777657195072884044083340456007960502731567549886468000, 65012817263575981617049876449519912004244418367129131034986805630000, 290875624331754931941216976435992224517236675141807474314519423400],
  [182196732932563220114744205509975093804823737671892853519564854100, 597113918051949052776464446695471559920325041433405886867933008500, 96144958868170808316850707193660366559574142041175538110486639680000],
  [4733515840221362086284968947594634797265010642185834878929127577000, 55325673992919715072123770681827750386910988212508285298261593150000, 39243351490538778738011696762931116018911065327779391948951890670000],
  [85246634955927987222441466325047090487852520482272075588520477070000, 13381985684508391221480521676618778034656548351084111909516193380000, 640181214311880232960570268213640502035312057313075098519117105000],
  [97172092576051028060835851482396908398204860913400081430751391620000, 1133580480787668627080715278693534082916014169960812037009062384000, 750833176130582350472872896354687303732425995716669857354429898200],
  [5308607883486364068280185759772845103531785484656082368908864947000, 30971659283900358644160760240450475126111965918071316904883897480000, 44429477945079167655230696148061899151456766926533287459590141500000],
  [14928961703225739218681500324765552696988267253293360670210554820000, 83213516850693823884974086478163067117779604393750863275676459490000, 1301389805100033796452357392320730125815689769880684996150496710000],
  [34240434035392507808915602963568526116203181917790231833996017660000, 41984132880710359440896030612092606487352315107707744763451751570000, 22870066643886744930654736251716520842993543501022270753853533600000],
  [22549420947997153074147091197566829235960796832266923135592135800000, 57654505102004524034743309608593869627677657956679138111353342240000, 10101888157841796147914097211580331698970762939592463092182498700000],
  [2943291941206383040123725223012587837127181424410413256128063787000, 56899728697258635030899380024384547410859782755762330288802089160000, 20214842200791988627412092513591396095294555547072565370773560960000],
  [58825183448377423449679676676649972989435150403278068524912713470000, 16089810333360661633537376786991082137344415447241573991589589540000, 9437148720481567008719186675878931114147870221359194864690735362000],
  [1268084872242645585597691213541066752059456723734478538150594328000, 28047486873055707499464638924756768322758388778190565918398666360000, 13827221722403077585069187127416213657708055597147603568147797430000],
  [52683359383508291589991840734329512949735974609319235048645275520000, 35093677763388658027103337553232883477814082132034661427754353150000, 9274963859395745105422989621125610703111502379155373919243981523000],
  [10353472560301724577280331655898055539023966654849719133221692740000, 4212746582951786818243053470140907441852908946985827434199832020000, 69259101510283421629629207267503052639086330015757406883339755490000],
  [12065571172837654796142404566115731417917922684793144854130644730000, 7735664930279657851484177784862803781350444516464941884229890509000, 79946085710524766101834616847822530083325977123722233146600355750000],
  [4880608649295586999364619202609034746868096485477994409990615087000, 21096000009494837091736994045719490141968097274922478681650800370000, 22251498957108074919103617328267931237947874846355145844994749870000],
  [3606329794280483509817435299309448256245461169732692501195013115000, 12782237217099379041384832252954623936022049428055412082421199490000, 49953485064847326564721982061077492239873482784439192320427544790000],
  [1525614613357650080982608112453719528112829518510847789503150549000, 600362017766094546811381242301910653138396811593250051553519641900, 5034211379204804220793825758706452602365762178542610706635064535000],
  [345570095382318731283777246936102168177434842024387745720895285800, 4514170400002618592732359985819174739127506495391743701061426814000, 93951253709717436369643212632240212325745266327298943801646333810000],
  [29465344763568003507283570563426925144335693624204501403224280940000, 47636346538895784557223166745698533315599216714956744384954520650000, 18144670046878503857161276163286988084921819352719243586240311790000],
  [63041899978920019597512521582811115013056507655227434533706273810000, 30868363148558829338938252715996845520063457749992090632805411850000, 5231185802880303813706336179776514915351689502421199264404941587000],
  [1460473188441083883052733324752068350482873934973812029051423237000, 6219592778925679356833948873421760298987338959542869414296096878000, 699326149458733316485374989634866005759042103035131671159022452900],
  [1144159375579308935357175288756702143882247688569656181233245832000, 23155705977941618475831014626999322407502822881884266171892957300000, 74689299904471082619829673197442672928073440485246539456843822380000],
  [9510922632349887219114654469467485500014379150377682677398317493000, 22951522634968437789670366852338958255214690145815500312338025760000, 56228951872067166717337864112426175848204367928336398855828392820000],
  [7495567738522908330237566368263354360384884258515531973295965357000, 78604778119371483910935967956880948487489151332558783761023336890000, 8103088738930594957498864918855171605856363884154610668791654994000],
  [23873375762869724780533408199841526551801104501351061841505245260000, 4557590494083153172204093132448957564176283972407585336918569057000, 66365552690919165246494371646761138267654814143516017575956657600000],
  [22574167198902060432586063851778633281067136657490159593506841720000, 72012238777844396858651621973609874328824387725889007889306746880000, 2884233746020548566355186489012436145547772760743172525400721071000],
  [48522644638685030794157973801607553396285271153494356810937270860000, 5260003866616920501773840867924820979965226433670024432280936135000, 374834547685178690159421728581125980823333571331177242161095540300],
  [5336218498558855603208393687559294672389394465455430336784189389000, 14103043259913265228197694963432841601493397356604237911834083150000, 79628414992627520540836636983314486530113226936979437944032429550000],
  [531658087492902671100618906445746502889348085327610514726100454300, 1089642581566372476847997125740664830690621842756155582627622125000, 78866433285146080599963577910256456517219978088944942956220284360000],
  [52066588279960050893154317879283759283128491435779064598616972280000, 11178335188842756099292821924253775386135579259122407802718890390000, 19122514684131610121390599752206246187979072913514922660134341230000],
  [32336035202178808851409079758525122547825549718485521185723624800000, 21498921838598586479379659292343287455382471039575438051615732130000, 3828281382471039793273551046430812441778192183419318615512560302000],
  [22613286536937712385060071673829736281193130620769447493718599240000, 3163774151595174407389989049532281001015227496594019499793357136000, 60013982972419155167293139912425271700462992554403834293346909270000],
  [43205836067537293111430497123662644880484522687869603446201861190000, 54800338378915265336685750127977485702867304061072637628852949970000, 928202996734487322343407630756361559843108658654402193765870511400],
  [58276845558391181933589920883471459535254745590928266159842247480000, 39528571150953192893303237910074739995482948102405055258679660010000, 905327475085709511956324305036375914459422895469492819673075933700],
  [12280016192329119786854367599391248913200452112316327336192839480000, 46238680780971653045875507305348598786430589162483382225826157100000, 40784616101126045128503403155161717366217263389109853081188016650000],
  [127943876782537676730322492385900919964024103422553114868008778000, 18186668902004468498698759004074025873499785132101904969342645200000, 11974527917085516795877984961307735236923179885787209398906835900000],
  [38532170026258682962121635233516395166871317644212608084602585680000, 5896150711553577951409637256705409223457433854585271139768942666000, 3382039126904651556131145221898836030938645299244654675254203452000],
  [33826036148328006545078177609100569553930096804069919357829835660000, 21958465942378453621915231665801959076302962164346151309234249460000, 28098200551498619278615504124468238111233581226349699833083528210000],
  [54236959595693379390599614953230722045355645970572257721492743590000, 5541674177001225124488310883005747691893213259237855463566532635000, 3480947122040383993114039458885280319181698516558575589524497499000],
  [83016772266204623671408982272628595668733533224306225017474695870000, 10641644533116186080914688800055119954102370127762810931399608160000, 3312194880742013469681912310749672617891496659566039214226587789000],
  [29300827616043466815631012438920131004444828125559717444373996710000, 45505542646836032505040572914305827062021779139760599863489459750000, 9651559792667012436906783459559539227025982811119278420815236044000],
  [711259506647531621384578940659055553076744672398956672507884840500, 60193135591074439017482906253354967932062593552466810109856843430000, 35143667310079396521919195496907382992121419152849442980427559370000],
  [49741309826068273428270600895662642672300084956526993843233775680000, 742550776552678758782480526543983734318623696358853255690821414500, 347093898640654821038429785974330448586018421603047673020470319100],
  [79467672805645172882866450504195088618520807824721645296558607240000, 15228449197881305249861358729176706483702665027256287273867701320000, 4968156857741971660559834063657971290247875480035368216231664901000],
  [1071460060750092569633587509449062205251674469862524208817145366000, 25442017839465311020542129823858559889239425860077620952662088770000, 1177059076393613537570903116035733468445356353459813374214263639000],
  [18093439885673093855186834010272195252174136197848204718662304880000, 3782733158264522727094281908954831901678847644506790100319382395000, 55007906777010058817572641504745618320785013978690273181282516040000],
  [19883229071840498152948415226251214976275299125402755273775500720000, 846211495308681711724978645647885760941855379777156239957399653100, 78167264800960775487278577533839502316893165660153315157608995770000],
  [60169037497601050758441212819065255816769067619312914621214721650000, 612265969989768184561157877504132299123283743374308817404444490700, 37354210411253679897033249162972036710393100066489405455692822870000],
  [17262399081570051286459750582187740142995484842853653674972987010000, 839195168646574700808580258502868180549663485273584863906626128000, 52204239973881075722119333612579648109389729529444916854697408130000],
  [5142180758471749309339324616504185936850312547267055333295683650000, 7994824017875561967774282516698216314190498244846608499957475794000, 80666075225042155001030986525550151300981091645681039314383160410000],
  [82721044131120047015881188662591701072520785807349953168661709480000, 5856936190362168362261365485152204870746497420158900245703107908000, 5518233546319158569600439679638738273355457499281917775093979858000],
  [4173389772105281446168311359828814241381758676008852939941278186000, 12096871359410803477845990632730727310257669258311689472755022170000, 1793553438027054656095519191385143602042635550736910040899443007000],
  [2014284419495195473858956407407518510465745557971033053651406656000, 1034715943700542658805079783172096050371650193688843903570937672000, 96784159314652428638818550840946706601736703970452510536568390370000],
  [33778478517729092602557780938255670218742544066977521524922764050000, 52331339161602734534477858540118075971390536531639839265335896230000, 371736320014941079281904941347660225472988794270782391191967733700],
  [908411494245547954658296565630239508912242640044046025484501671800, 26693468876118357687219827103133568344638844703511759705446202490000, 49618509799161160371391236885569371988095692844687068255747101690000],
  [649557892482379193970028888421016505912566423540505005209771760300, 70871903067903553177572453153695983725156634557876096743884166390000, 824443984243023155910722564658163326444169922296412285198662956100],
  [59915709436457974821059918914562985042265882667323407955410777870000, 20718450569029764698594835456275902843735674302763684366359303060000, 67651571014353351814110145184957850318467741543683606335141072650],
  [3031193014347916323675804479182601399374617444357709605001723107000, 90087887917451067219217113051561833593349276756281481892806224860000, 3536509131904274228832428094538911832212096905363587300059780736000],
  [5160329249060285339820647326986936869597931351283189697533235380000, 8940635905022541326699590312518660297550674045921885761899957380000, 62935976458736836717867841429153031980973855988751863942929360390000],
  [36841677518979603304556829421395992395310719874890930385404709780000, 24689678069189722151770357527300957265201227020196684260039414130000, 510507588673524241387824623525770210375960345870106147099187631400],
  [1131167314653621436029636978101343743299796051643251817414090881000, 55081320923452088406277397120757317938479851103051134646444591300000, 575395142700882528704526274025568079813439396229717915907992497600],
  [85975847668318581571743985844791314654563641603364334855596903990000, 5560702389242012736370731093428812378106810180405149654345781984000, 7564548922068136372983283491070960230500672398408328615497086014000],
  [950844266283703124880935675747141464931571296452992686266867091700, 66160719964355952156015418321628902929588837246956879166923183580000, 32275391742008953518134868091540650273128017170389352882263282150000],
  [3333702157704420302315649886559595597398976321986027176947446490000, 455441276969233755611754338478662005460815937832508862088164604300, 14663693739880238267594655248328366505931510341593519970910724580000],
  [10005893374592929790897288456278128985783862985742241650928880250000, 7321433338180728857296505194762345320149358533469906412415616461000, 51985638912212314420166520803747106158995922813741363155335170860000],
  [31316492704132092790156082348299078894009698889442100353700234330000, 33982858918565944016524281109229770342530866505483060787504324430000, 30682900661086028968958351119538145771673013510829793452618703670000],
  [6800585490035671427892138319679297420283054086187243366049249998000, 71446581947514604210354979773551077235561002755199835280760102930000, 17694528450535617741665408869826540219382712929499688917723814720000],
  [2855617687440378411300666820793448613154315136027610491436277898000, 81719499781911981927234354774148712923427355980602714603097129730000, 4800415187444813336907336921497832280771703217801764604425740315000],
  [1168225528257991324493770801707086048651638434808899101741123364000, 44577942139580787479763965300675480266586758261771749325381442110000, 21049033312276777482948181701894060455549877481600205325779848980000],
  [84952551692085160942085754409797302918771338654265384209506505540000, 931872709058573018722106579515558460510220759100761801615878970200, 640143397878160889519588212748962405374520643131826384419862757600],
  [1163346291511932810261417430393382971128488318359812973291550828000, 55227835772279947629530060722763105222068316528098600315364147990000, 32693112402284798923194887101773596888748103602822493718518315890000],
  [10145173870745863659942837272360032459932884553538870131647695740000, 53500530493516041823485049786504723078702060796546318682113843250000, 19603188682450180946667156387914779572866899488161662708582936670000],
  [874176812062197262072363211062123669546131898326309909339843620300, 12198882859616291313429965204354411893885552617117914985955162550000, 86133716566006206854623528397520546926144840862939716693672596140000],
  [36162463551595278080049152460602565368581458316517203195339088910000, 1267650156015758135448336353039364115368773672101130859492266517000, 1142227726097214753538760785775966782350429524388026663899439702000],
  [20430588990877935511988626351032594237297421551905798216776879450000, 49973058047117889352770206420777853478936204422129338959298743750000, 18397867232632620326595267818528711258460333127054138692732905290000],
  [766524855420920631931848852647892095297087452985873681129783246000, 36041893019606007770720587665610099292943856808502978879798795370000, 59174786305026447799761845681823707324477675852039486374069390740000],
  [23574908560864894325078073188835713373997650858437885479431921330000, 919484849070837714854571937689575513681874532288395131745435633100, 1246435329455741042408889662462765739220655639678206368977420943000],
  [3738144283773482841688537318899551773587030852132193761285149868000, 58383485308346848360776148948178399095321120091386235208942552110000, 8207994342619603057894998944721373593534093160423542346935643655000],
  [533496162304307409663699982990041308727043242669249152108059568500, 67280034071753289510838451523098763668452170795392145331211487890000, 20696018330839246466065215777103509415333730221371722037482059730000],
  [69559076900354472994908379776526545268633264691375503679012890550000, 8475887521478513788222342899970627027971450279789155242526118368000, 13843477823508785810735843444132806304327629849005633186705919890000],
  [16304789978152973604106540704811378422521396594689994286027074090000, 577490969974058303944048218143562265736968686580978354088783980300, 40368384080514749766978525599081434803231687844982132362839439960000],
  [23224345716552556957161322658953825079712493610881444863610479820000, 14224287056074156124717779622795303922029113589369971187079173310000, 57259155914859944539047194033514199840087104359551929481791494510000],
  [54373807700980578584927097093140723915642618481117735307185050740000, 23991817312640130444123029125766784013090690067949759392917649810000, 3941288050817119250505923106996472477856329293263682274108033462000],
  [25977144625701042732724490747860164937336767416520454900100288790000, 58319022062727570060112579212781042989472637192357474166125399960000, 15189578174978593744122774647157525927766595096304901177558575590000],
  [93386948045673336473800943213641418638611139802282203755079826640000, 882328882997402697835596215550345468920662337869827858321398087100, 5013165002365454150038719616788751649960433899677938675786903512000],
  [25952323268501475178946564570722753746074484919445787149521062180000, 26606815050273757270539407815130772202477226952032357145983860370000, 36154081248233333292452507739875194006380173147448872153538169520000],
  [42198997966050840385165918062147767911262722083795947098577856580000, 1196428529707447333313845534950259765261608437934008598020598760000, 30811781427441791979584003089256953725728717450268894790518178660000],
  [1190537715631277607131086295797363051494773252785653854131136435000, 71735850988100088069810030841167756827105991914374214638181156560000, 5117502223716721146431852089624906459257709976563229158902901047000],
  [64485184562938456115520359463407835150730901765355759223461189380000, 5862414142478212982180239248278081118066162963708465173088619122000, 640542384099485849483700909023077117742952678549547228364085638000],
  [9544537324923807468491379753840506491075913746601310837478168449000, 84230397770616269802756474050824603484434201211321920787336339690000, 1567103824833175134915942820336418703026806346333893901256791824000],
  [25530969620360450942071973994080941014792128426069780933348628210000, 3767139537884794890141702378237125357821593381286258881846174748000, 4648609669731106430788675585230631251979148416268179966323242871000],
  [936871694399902133118582635624307203612888286398787297791406487900, 11059395885791641968385260980420051208088975468211380121772191880000, 83024595393147041129221410920963088706834547192508440480308753330000],
  [13100218253887171391998408010949017523979929528507190829978892920000, 4180814739419271106980651512835100084591908722635830353261042775000, 3504218252223830196844625381555924393657622016422899912500019921000],
  [4638486553629214215912165091221373925347422877954254460365026897000, 19491465493583021147093209972580260410501895726267339252227824360000, 68656964560678884732954498122321673984989253641621346154632472900000],
  [5034371836381399857108565475625629773976797657412265670896151686000, 60305469104884205733912098760225488498644337690004928048996280580000, 24209669900174199607522902658082761013016617152654857475021123500000],
  [43633999512354785698449836430464370952686796265705918899887211700000, 607381156474023483048641150667848470324314711139377558310508546500, 11623053766661314187409144767913276096114579760160577893121078790000],
  [54013849219871555341167813428740668687078390016898451559753771070000, 9619133745750177552768507623474372777489432906555848007779898895000, 9459362468672832496682874771909775709467812328443834792561964224000],
  [23498006164820517870646997457049283089379308445722446696599358580000, 15362709525569766824238430797877324468696844043962289969625693640000, 578976188662095168677556700925247040824254890948092634205603987500],
  [75290847912014368587999816427864318140273084435328388036244672650000, 436411202849621725260597355265623384755079241274547453389489359600, 21615524355963740130527329484598176777733880116547484343063429620000],
  [58610993237130789902023033943253149058531571085284267028220652930000, 884692123399660812542451251607007656281264447752446543778459179400, 6936040166616533450517811720246288534557884250580415477134072299000],
  [15832880221733496199013532021954714005330945437532264613344146620000, 964326220239621076657389933819881872498870586410091986052180335400, 71198167995743169589424814721863911960214580105499419981445157520000],
  [4011212602146540406036775794602984675497014794710981044315827647000, 63058937314210926591154167732694152913157816239188452485336174260000, 1445625810158590666281321774914529020085716630049316664085994766000],
  [66540668696098137817119422311188657122864732894373562487497125150000, 27822982313147162047349156469313178986769430880550098866704357850000, 78330555676346232381154651837106203155671080736988219881467181670],
  [37643262905390696169595623920201869666978071413929417506777284590000, 44559664537318746876651533682814289246608503713131450355765998180000, 10512604221429148702256799183306627585555218767161031618461753870000],
  [41846556122384102412236476801157010475618781307970171973023006900000, 6517176428454941871509564314168888887754604300212484859693536166000, 29406423137499968367882812795499274061940451107059711248026228810000],
  [39005242938907430293818883709478801047161071810692555512238003050000, 25496319185777401701883422749340950106453211580219472046059120740000, 27836731182540977833519857836381263839798848530512367715028360950000],
  [123207517282519699977396550520470447895148814793518211732916397600, 4942797515860340748996562941062087680874761688235342787199339092000, 43052786889971721779318646647388896950184887502860536066477631390000],
  [39724216057217920821779360939673682708734524947569226363517445420000, 47469772806854572120228338984541225293714256828606375629854047370000, 11581793277672698257448469962137961371916570193129345494578194330000],
  [21394013295716663978362965409531912074334117718782511983714901560000, 4241858351596687987551238791746825170244825449636604512634224388000, 73414542403394770656912836209134926973805459034935018328651528690000],
  [18210840405391381353112216863464350519752736477004968591087420470000, 77338831226771991010937640952848293988688738549959972950681146930000, 207798468125730568075071628537214496066372784165574088402653973400],
  [11807509507954883607530064061645394960954394180735111528726227070000, 47149809017306761138619487393804308273768719150413777192021636240000, 36741142550135144004692521868855055876077860767836772059218901910000],
  [71814625832730702976279357029176875756522080962727579473197375210000, 10401381777120480265320413093219334653697971464691314945945702920000, 4731369319978569025299426361267886109083122315409724718314911198000],
  [280861306133858156874058612394938448729477305918642645362796011400, 5079748259498374012290593432814727468796882506607090675292882136000, 82728628146256098803590002087446697742008725714485623151985158720000],
  [6621387023236316207522334210643054747420146376772017697358819899000, 20044686270853482532238320547389643939239273173584229408798845270000, 4366826677221895291556447536297330918615123726273330778496035261000],
  [17562717273484029408675122632636326535353068659181253393419943720000, 752503112798280447425510179469468820761887377142026437376226125100, 6352564316205085194019053410092699628105586967494794648069328982000],
  [12782701148592771712723886511658709469098102791037671749564466500000, 12825078016875830179651581790733044438081628464862407104516296020000, 1110582215502189598654615506034268376404118829417710579909931234000],
  [5168293384726117976508602690774397201227371250066245713081804789000, 4641922224627415494228191079268971759285799903655611993458227620000, 3275274415101358021240809669044443536331193348771003808621219082000],
  [569362604220322244842333454310198386701264125488730644649758956000, 77785972913696773812507947274759476311344052325580464431873517920000, 9114061690049925396600286141328851180329560163313715748199832477000],
  [32564187297462513528690269735444123529898638850623954780590545940000, 61609916172591410654716912438935056622662291163504254917860306570000, 966838780301078416192845167613725214897523740649293890771047222300],
  [52116873545482816742721606673543497934683834578792200629695156860000, 13857786672713670936253073923604233611778125911854975542837930380000, 372147872146720235450197782211474875211746154046454880691961789400],
  [3990555943329014073994549677763520940816865732448210592539142841000, 5764771090048597521131046672634562550323092690534313071861479780000, 89094282744068214547121793758888304175300184241901428833798143050000],
  [4580494075561376201460219198647673033292879850638659601702675474000, 472368587489133559962343025238253612234917056822184074756940425200, 27126376090685967273524509770295230296631753267511066121400079850000],
  [19310262527222765006723276540982450050299045814344894642986643460000, 31063845709458084298633794022641714129367194643084993520220039970000, 13205851829286577093300196553233342756936069318408333092305497810000],
  [16263535499707539606164157609829949552679246418171424058354077690000, 62603496584880380785730169487341465415505283907012850626080597880000, 1798938947427612272673730764176268171523591890138175244837616593000],
  [19186274336429786202981680436986950872287902358747549311481773940000, 4858656263788022054759811058506284416775595869873977671258859479000, 430146729234471955763381330196636336452160184307713138823214562800],
  [1188232325089154700964244237874997450031746812616589544656204356000, 93126267785330351605530519470932734686671057941533752231459072480000, 142734711546450608004113558939795720714896467244853020278498440300],
  [3567557910587030712852028341786657313752675633186612461112065410000, 4138894066127405364685561734718253428364266266101876972529260786000, 19245627876177764727410698563231396953343204797437073836083469160000],
  [29806578656544740578655939116998693858924109969475272600357135520000, 1055547159278136230439132545466348404815569771794840489611535388000, 45019292920806271496589573081936566373721634653795255188929338250000],
  [9949669572686212319700468430410191790209818181864023637220005288000, 54644161858831288328674248004501741688053896745391769383138439150000, 11430083578773773308303128259720386880517545296221963661156141330000],
  [74839113491862384067679622912946418226737853648311547488191698860000, 6025101259733271395819758910600062406740388247978750456301481903000, 18657358339479321167995759944223736318908684236732640226032635610000],
  [1031081473728030932062824076307127792528292961103735744603683486000, 10257601045827605616404132066933887432468875611540323362390051560000, 5831432797541216522964467362364947377618339094463024039946909720000],
  [1147872535257870571698269093493755520158845618958512214738774505000, 12985643760502230819667760194880113981593818392221325217308957830000, 73110709075929912755360903863778600284458076493265180769839996910000],
  [1333102010251893956587668990699635957771972758922946792932541880000, 23579667475473361747330944524636884724489155798870144038376706370000, 61929416886710056544996216468109652372433714485517563773458453140000],
  [1944990009248423105570354491109331936539241907942566388602658161000, 13349252548172893840725747288199815337188444238653275574014258650000, 15390861853552815866035517038473628555936770751830795641222201750000],
  [549855776961764189052435826519970406775655191028045365590514190200, 1126928400888254759216220947514083219337618232985742317297692970000, 868520447765381532784758693020219428289608091410200638434420873300],
  [20558046835707037428642758037662429501662200939531045585741933640000, 33456291757074011599018197883071308894739692982984488254369222590000, 4869203430037039801384553449914161265556662893504945680587369065000],
  [29748088954438043291889630491859306928821859950709855905846361250000, 37176740799625579686875785297486996227281322328257766534593645340000, 1266135572278842727003273489908529646122411984746248601836912443000],
  [866002434303295725562328107258865992969075696659199770747048827300, 64819898800924031903063588930635810735573185385323143288963881720000, 13706448499084014832640468016601176292188200846499530333971891710000],
  [9576031461248948022470098580473629059969448250264879675010493603000, 1306332471587937903831399479327654623177269416109801595909893983000, 88585177776940076051469940993385349458192237275222735810335082390000],
  [77390011655902070036541176916864412494411978630862195968133005700000, 3113144938247869972233668170446860841651838941225943357049288843000, 7310737271143438464214536440275516370965471574101214269488464560000],
  [32549690837224960608722235567001935873790363560011708930102826990000, 694628524636631558544681624889769867544998738678628468582847941900, 65584443356917064139259304606958066509057391420987322468118113570000],
  [706993904652842865132348050627152204084424235117821342262918997200, 425881027814513174750141032538189227545705099045602562513338031600, 38192309472894524210224624706013481247402621508888327099198586910000],
  [86317290813101226123782769560588793947152868739255432177864073720000, 622167467994747955876974303523303597013509011729058167432954234100, 8346458248177066408643851239534810615526559228880784032487538754000],
  [5341451155250988934596960226670298060652930137261755051592891574000, 18827624417058439954044202903736078417265128518187444744867498110000, 57121410287770575457668206548136725255149847138507010946957169780000],
  [47500309679503920153929587382128150609451358819979948554993409810000, 15089732163120378740824742549927661196295945849122275908520211920000, 8982349130805258140206200620047403356654208896532968377867609763000],
  [9678497431782780710925081122139382789257290369419056056189677954000, 73741876882753003055735708902057055205997196624922070994581502440000, 5338801936298250807477591656163566794042717438753493858719443842000],
  [17649682285656306602003965078597592151388160736294419816850539430000, 71174081182272801088945423398341571263019620426730501056438478320000, 4217314485892836403332688014284816030041015854583354792640557182000],
  [10970230543123134128349745853998886166285411783845104956912569670000, 555013291669642008631268830161958997598261470861678189118415406500, 15753960709271573544961931229644817233627467517455573513215440450000],
  [1310954337699735613205757518172712600198178331369520994792872898000, 71545020175219884767709717617788220570406458843425302882072417670000, 22813477781592949854613281099459484978979259426820787775491136550000],
  [22524134103263984383318553748512024367377151426454074078527934680000, 2157494738063382716018571548997946429703004638174839954895125616000, 28038231095371062703892006117587805382171660217750001639410915480000],
  [7050642987134652624210456984911095049933018898159943726492288070000, 526288127404581286979937247731586659049905274831826788156191959000, 54965602257911362107323654163886862446645404452032439469353664290000],
  [71492218853779796135528771591614314787809257203101518271166244220000, 1416785063086838351925122095611188714380026820452148243057927707000, 26868888890777597724801492919421235963003339925825528866306136860000],
  [21193699587931485707255212200761776666611156548191730274954835190000, 21799484000625954846754566600324073182113938276284455488932582470000, 33986127787580972054022431688288878791541966609023586754516119300000],
  [978501919817530875243224138693581950745562064942036118254629498000, 24936575162532714474894389846584157463941592933828264051887123700000, 31378265584641747556196540256145907806058007498181085803111116730000],
  [72393458406540635293404109315958165944607003389583109715943848130000, 25650654051734959555360648760391240195516118628610871187684072990000, 1153307062940681569392351718608097949530881821793442933591229406000],
  [4820754075823236321181327114367590739963950015460095824576660944000, 58554049159256234640757149080925769450366806263488261073151228160000, 32425405943946361407253540363621799986913546593483900175731387110000],
  [93050608908545010629611768352223026176416091493809961076489902780000, 669934221576062674368463719156245458181731334531991383847423097000, 1076871833167019714886939484397537690946775236193375868400557183000],
  [28299446783674814844905143900448183758661057727747530897611280000000, 10709418305380998598420167756165850238422841943418334303630007690000, 60709152589091371280596492441081379109789789861776944569792327740000],
  [3562596508906133264218239672385507704789528577840445065322490648000, 77327965771585397789063908416476963101903221682064112958445933050000, 737098797012521688536332607401075238497734748107003991188187866000],
  [50923859814355235268428576290222612089010277448317022166039679870000, 44000046948047969338548575108755551741422695883723791952392612880000, 4944921762002954968390855610881129131722526555257288356473786643000],
  [27053535880746820829816467265792528131928964154501820580440851010000, 726911436084020216425317630329188348952880433552727986904895074800, 66141243482505622525165543302249640560011636231023430848404309790000],
  [415508155199722990138010540525749140208863283591400655828485971500, 18259463204409625249244106076846083827232197080286207229958188670000, 44601548258271472556280915551704175004894878037360652396792001260000],
  [3828426760998771443678219063097605324374497908729188880728918941000, 23471136364611478152434769991666478572022992428249570159399664900000, 32783794342752310170068303527159020712575697843657978497830239540000],
  [42466017971055801465295573462177281290362883023883882143065898960000, 764306282479275316581720735720377700813365523414941066065710033200, 52532088059739406268176594740851508568258805081340282045767433860000],
  [74168191957036503737990588452446863938915276772643834649694558900000, 1095577564420836079996472642887008998250934920670100193188087896000, 765158991187202516941788078737736850553869391310422882225483995200],
  [79973225990930526400563569568986353482466615836404471110612724650000, 10876402708723342408985731105650691176911838693530141508266869640000, 1046977866451555328416011406819374682408608064480846472832258076000],
  [71154808896558642898556129879821534646160523787853356208765742660000, 21448752757898391986098802607775002652952168374082748786564776520000, 3983306949603426432861132160064044069680817403940247905362774019000],
  [75812121149169230820815370283033236665119988732981058481133500820000, 733669680531837310833341264825047668185912136721325088786362905800, 14739186827135982641050707062737715563066303469381793884286850680000],
  [1063870535184245660744234388777489078463902109103237813769150052000, 96673278239522349071341206232495770142989127154797246025522889850000, 1274813998778700192521855351403665192687493935573715154824645369000],
  [3415179205998724866160600994127509722051020374128569221817312372000, 29655994984701758656383996839812911016746990141778216949281996980000, 62379121797048319479853641780219443805493991721975275089004861590000],
  [10865492199102832229325243628403267680155072342038272516959546630000, 39350161736562253808773094451323357866373024950014406491236800470000, 3367510313602265550219881151828101744344140079378399584185646018000],
  [3225489046549259531692731921821715884041324324978856912927329144000, 5096175291742458614296191818909543713877905725164698030880959402000, 77643084635126391359487851496489093200422185059393432086369899690000],
  [85967561333280849579279737754498512582021332115912114100298869240000, 3948409028271516955245082870437540242211897194492920691530439525000, 1306279671246168611705945171800141141330597405956013198133510917000],
  [242134815224947477000428026618377903670405803125612749976439219400, 1339485067103282068817502156033655334143617931965588452421104892000, 11968313648354871425466168919355224923542711528452124004665573640000],
  [46569717306986914407122629672552453215456172637627869565445624880000, 12374390200438780266339951968248915328102439080389603120336242870000, 3218567058228769735190698930258359308310208855940272300900909450000],
  [15973487134478190823139844946012836693720057587707452807270604090000, 6196210501773992182391879978233666555750348372862742341449633865000, 9600008617826542544591835104675529764705815567962614766117607153000],
  [5482676144791754310563594124454301360110311554408439199600221710000, 89980242415126586864742321957129924905154024730752444698065324980000, 4381346463594868010216190153302464728329459374773416223233261253000],
  [20355398157089767721306888121553574114337964422777869491288460810000, 55998032095396473320992000182200048678648369308563498667058304950000, 19972101699950294831882166002935898952930684006780532953975025730000],
  [46774613019005985039364985853992041558873083892540717843965316570000, 25627513077128259054175001871517022560176129854124921260761280680000, 1180965318781632643065546874696557938576815309933385532113452158000],
  [617162900114131543210872978380978338224020693333468254299475512200, 80051493226120303870010871796075667858761003566675006866120313590000, 18481700955149905322213091499801788598420526123440649123539697580000],
  [5360961851347231577180270785634362811729600477414317444616841890000, 47656356060136420120443184802287774956275927087052773445087594430000, 17112629482979354342450022158757399609904329527505951872848461320000],
  [35683180243281952402803410379218586827977679364416400436861378230000, 34272648079591877560155466304645665293231180610112485742292267660000, 13534648756301680516938368478179185357591035424196504483971112950000],
  [4614107692853971868865035729983608906575644995224308352638305845000, 33823046492054384353761930416569237977471989136191691941549640680000, 6047905214217174128422734886806176112600892485977483322376140937000],
  [40256387445423390365875579349838908295907644036993168937595211360000, 15984752800278042952243070096293303313935384147138809801743855640000, 18886016305639103970397815106877612561096249251191720208473672170000],
  [3698458271096192696668240195716184552284806663088398395447833232000, 1511944381385080906427013174855215857058703798929871333847318179000, 73945910330648706558056528957914797779310080346266710649205755910000],
  [23815411108147216605019524758152505623033447652999876948752534100000, 25967588957980283358487886049056788072117414415469028514488288640000, 989010921353807489287494769423355735438444301892965939220029975400],
  [34145378570816860249317498258953133962941323120585782351266922220000, 3930395399675286389498744409275297689702157862883440690925384984000, 60940894009970479182226464657585415290114793505810267195076590740000],
  [527379288236925304874992903294739957958376589092496336519749665200, 7715283658562105984107547969217721482818831017045878675648774911000, 26043518672434323969790495134258128046827205889922896648638680480000],
  [12320991921825489185070646553459705982133076052716623602943624910000, 27257903261124603621932125457759720957108556881763760292119750050000, 11134988140384055370465619422921651261127191104564602601775030300000],
  [8399865774790325805620352252124002052099821834548605479310386199000, 6149320426419448675591057701796282509269927103567758433174921499000, 161816432575175942460545023041454321664305170963108850713570226300],
  [39898829236980225287758465547473280262927465953975798392064808710000, 45825414795691041134363126734548815633196654030487451360109845800000, 3033015688299108028374989360970443944625458715283908376706638103000],
  [17024118303768935532358958541254943942285519452144046677115217100000, 12493944837723965615790667517902492624652944409886283920046436800000, 39676408726146947578935152756775141730399142642043708251620584540000],
  [16925127657335401213311572126100889245748757557364901684091434450000, 36337979717070356366166702069488367469175787509793324678136105880000, 43760903095341232805781185425094433272637064236961858617776295310000],
  [12639103535645803521866205354937054442220887287477805862093708490000, 37542559139716853329699646457904563228068593827867119386639709860000, 18302990595086226122377336474883484456142539156499888813290169030000],
  [1482375524242676804065885673292550217036429381746448155603702598000, 808153249943299685831960974665973899948647688751248435491729762700, 87674914950401406307490814528709546967722320979688150393799419960000],
  [43389393103198139277052219137196193017932214520990558299425102140000, 33979563324830632089820333848931624484642958511503317380883369020000, 18822847306309209562843083711660905124693578480895272154828040140000],
  [11232465355678068635582924766061523302022350776199874018365840360000, 27927769785949569329451785104475623586111841260119949074160764570000, 5367976931918064609545810451071252262450991142842821417994900809000],
  [64541761940228033382811640841931232626687667312215468720668947260000, 872153737354005020613978637531877871441155774686875766873182798200, 27394484092102631092951189428917003300698054611530638476414136180000],
  [25026238134296312042006609324989373819780515352856147703265060880000, 8122795571646076648879937064416389214039890169980027371311304212000, 10706932948460721997297134722843162097489022498858064016020494230000],
  [74581915464341365441159152643148480727239184264472742358208336250000, 11718793223298708366871671589353811685828986482592651576788961350000, 12049226080301828125414804232814959636434965845678617075984547690000],
  [925198309485173733769422615296767064574555276602095857956522829900, 6423485609564247213008350378122512248115815480188906799953037976000, 69614606561224645674428815326442435846805121361876059634707030440000],
  [12187796120414690504842906304026622765424848344049328191333336990000, 972698102025140664976742023005504337034400280031493505608388370900, 1096929408069078020672317919108720734727152156263527848424853836000],
  [24008328506043090358192227237793305869812526923328534692282604370000, 20154783741713756625996195093197637800076583483027264821431140620000, 20371871621033913207623688834073116980930387094546255667739724820000],
  [14502247449431454669469369353562708566542529343071173457764022950000, 17271086579651387111692680025189966532904840326755087093511905000000, 67843633398254331806161647917091489247306271018822351407204161860000],
  [6569791204754417332060415362175192196283696085970470048742205104000, 15274623358415830416118629725161815858681732354065858419538840390000, 35099682156000912718580008217647684443283440375120266978743074960000],
  [834798285399466302620763963723643186863344002163323074346129154000, 82582518941369499789524272148611618172734788298321847322032071020000, 11774241122737808964456232703413494916014314249604827387585469860000],
  [631344749382730643026108148190910095675448596069853297475494234200, 6633038692614009218630771471954398231104434295668329705386798943000, 13866894152586285376692645279629790424712491103392256542341872810000],
  [9128736212205472906894582696040412584143992371650760751447582197000, 3119319052884467497778472528850694456054682843207929397560360596000, 10967418240774202281783816491039957369010295926978754707452051610000],
  [19935031792507789525195492654294986802908402865221425366045599330000, 4705844370570278476841033513405981253502508129494064029800203153000, 41387783585659843354052884338499355422469408663313148769115181540000],
  [2006047536186076446455252508286613686074265290221973482815767559000, 3190204782498205386429379738931983095060475001697667403853381405000, 33794433044472356840051338952400404633805459482565099705200980440000],
  [90536008982949301414789923437646222348097146931247022916398190830000, 5570543020491999094830631194106631102453622886087607089343384615000, 227877283556928684618707160373502728778635457818229457896860408400],
  [27160872270653101885786057607801117897416865302978692963823361150000, 34280781618257905405427845502095259033283840489091744979448884650000, 11350429835226575860969736759039568135807253752732486004048477850000],
  [29819954214558061969435244096355971405294324913568742662466138860000, 13636832792526720066952912330998128419662230761719697092420830660000, 28956700775805697501081012147586706550027027785022942894387186340000],
  [19363083585628098403179729812941358076067727743031074729106269170000, 10203372306666985065027171369817833245318045067297980342750955550000, 68016776010817380030467623175841527196526015261083499683701080020000],
  [48482125297375104685838397825315743747401900200677994600542421250000, 3595128161526409628401490732229912282972389253083424605716530205000, 34296791442969139128275056979102992519600476337379466579025328220000],
  [45903784085201709736235266838138629245066562742149257659110976120000, 3720094107721546893572348296818804545913140253470934667775471623000, 46028884859426442737463114374497422427897906763682884797891491830000],
  [26561046895225076933578054765155152983559680603351376133921614000000, 57429061512560904736891947836979548320057734768710445950660246010000, 3575832569873157595281249298709378018123553043373423208745238006000],
  [45910030928928291540689277438414580958967943124197213690793899890000, 12860877140795928507302628900127958703981984447360816187759225390000, 30159577849920447738204612057439872635359256061023200204479590490000],
  [31674659173185112014254572873009124372985218578081364308410733040000, 11154730995865855896376979237157209131687948151017580941660691440000, 17489899493865585466631621917218283208100403162755830326907222260000],
  [32155019116017608489798874636073935022006074628134439303125077210000, 4693209020670127365445532962069180877441084498103247989325275655000, 43381511270041538826577222487224526810940999657616792445595343020000],
  [3313862236211531467041265839344840264654798570694382600915925475000, 73079097326504893558070550033618342746291802955335769443970319030000, 14102109895800725791989140618586922927129016807090290981412754470000],
  [57189001854625620193446650750452467922349490892485972322317139250000, 7289326746475271816404525118216521215440280623995013050537272864000, 25522756384051132226085030528390692110770038408979079911648952010000],
  [9770188651407068966699586329491074439499100933494129477311993434000, 17701425480163398865799362608349774474643193594844398765839097170000, 46068267873459272757886697403659497033910933906362460191190939890000],
  [68028426145357054942791724097769713471717597532484868535239522220000, 864337070099669504510830049002341767583805319670363299429434270000, 12423440271845019877649860923219312321340265409632572234730851690000],
  [21535957434725905945933008906080453709851543990985564985013302630000, 38193942376044714352900456089161723451545281405817360744378068040000, 21424358608229022446774605861395002451724447439089186718752547930000],
  [27262137419418452362954469343814152551177889669106229191531331610000, 12797128072701878219553947649469958416769049875436126350730781610000, 4580100204577557176793021983055094835091204568052420823860083461000],
  [39844518537293493992143723897973778573013581090215201186284157430000, 28541570048227489388383654642829828339330874553676470058254661200000, 30919834267027454370942341651772439253990629002773482468004280120000],
  [4323598422595850792589340437769073140549071740040309346441676947000, 888930360026796618837980001903281899266988911688546205826067635900, 43723606483545719812485012069676138348567773082163016242965853990000],
  [3900172368806890544590749000009556352044473472953484069625350897000, 5476349798324179148983544074493262268724793324328813964512016805000, 45504194685261329706184515525081363174644830467377413047291700780000],
  [42757804609982804785854210153727014229513857023518589298239357770000, 580953181221175143019942265832702513490158138914210516819129315700, 40835774236862474429932768249624801872115098035604349293573102950000],
  [83382815303536789558877776818169553997764224850041997375991684190000, 488912372558105219627665257281522186471384294580606816815586810200, 4409390225232897508338146909057089820685942497031532300183024320000],
  [31425294591818598026723424377867035339828603308670951088781355510000, 6142837736376139515423329234354819934200877363170872845141464774000, 564587884263061956225965235789867660934763740211983963059548822900],
  [3924791261317247060551725646648397188982337401619106139052779087000, 11401382341298373681499738187670818689542145759980718073267485510000, 23950927468834671004360201405651464527371683883284905163066267410000],
  [45395416791528038126494055270032065773806420765576585820313055570000, 21049527785468355589439980457992200193085985702486656875253762830000, 19535337367256298918714161372768518418928017325333239700892736760000],
  [38129929081251291023055449571779496214280636316313855178579661050000, 11867303138634983652498891334804116348360848013186916387693591750000, 33034472472852353721809542322136355712885618336045540494303247850000],
  [9634781463342883351190790654389184282103577964306091296719153251000, 2712134112937140031262732334357993902405963855043175042016511386000, 23295080909036059582462117133243590307686963893513551867570836540000],
  [40938414276813635561902560784735638667362967333330261318120562710000, 2279364172315966581146578522457806872152312849985535145086317034000, 20162076526795907564116336272660658469766784971232137904016281770000],
  [1218601666391607062260945835256938942425214869509004776440064561000, 35865139251096271328298615295754915311719776428861432019181348440000, 62247622367934494742254013844911981872719816409639533415162138650000],
  [56779307688199391919924565548688562185488280743083182066964012990000, 2798010380355909671248182781014529978770139015657844571569051054000, 12604859843190744061126013222583952953423380886674081741268155670000],
  [12181715955685866964214164396628502894053090805679372978426020610000, 22808886650526747254808775027587469171152749202177221082489901860000, 886222238752978946709332282490841131777309702480769086359131835400],
  [12479803287766120535891888732768025897967826634944624679133179550000, 22267029790278206594227428001852042553644844003472300804169540350000, 61227080071920825590517460196257271698198466821311175065926005340000],
  [60420858126973240216189231648368157974260186646234883011961248070000, 23916251116431221884423608357359685778063980089533622202776815150000, 7243671589999448643198318633785925901669373825865786118611219673000],
  [9569448959359237950749936159441128738311225203024499128022033513000, 33500984920206411770741098367987160605776514716548468898053652640000, 52445879451122094138656259496154738771653215560775533521656361100000],
  [12674871437050544733532341819898585986309133576956479432109907590000, 23251426063067956574583611762849095508668099532373824309650247980000, 21021462576366506175798201299677441209107621291223246738773841660000],
  [34244447351955542409797260856657479499994461676296568201634222400000, 3383912803333577338098208870539262530482122620187056652604221311000, 9799656473653479991246496746870889672828488314863446678159271993000],
  [6414346632589353156506260847643956514305313911684435376322477688000, 11507067110751933370007047933247381577347905076895593404358626830000, 69384911836148754630532055721111337483516648947522987846466092530000],
  [6143584703809244135627048766807638513766033819142737517871704280000, 45175404327643766727162724606540817156387979058408905023001525100000, 37701475260036548317190077422187267748088748318959738349741789050000],
  [1121170716683483286847251599364622622113896509877904365570737379000, 1223002862354909949608942167318831428200837770558366074589417585000, 52847972657870004658561359269006792249754399589462890865083751230000],
  [20205167805659253428801099495969835639135892448743295247190099190000, 72041622309168584557899493453635395048681586922863665076516628780000, 7134442615272177584057472036605403121795059301487138569058212877000],
  [11394144607368730857959105492816615525592399807893042236101237930000, 12373705909096609677142561921186732901735551706264577094630616370000, 24841706167624576776801271719653132607221550955142009659984220620000],
  [15771342772334179664826158435960697672936143775400204180883570570000, 21085060683600351413249943503527960377867173850272791901105484140000, 46189663078502668179113352060067285173824644820565125571555091580000],
  [23317168116976543887679510242204690256292910907922027146570667140000, 20895572755597326342215645190553853693415252756647937369956616430000, 9374785496221769498081834858604445268396858632974336486736447586000],
  [27280521029713282329121196760526818625264932295071293030357495400000, 1040532069820405814670775107877041124145177598638800133187350846000, 36989921297659750713710706029048977591134178775030522693640796010000],
  [661736618695954130230372678322725817828199711181844929605410041100, 91384933633410311749656159994295645279950812731599054283541029270000, 7157035819017593342132683241738611168500524683587471430359861461000],
  [2979013824047166121603283123213852816725898101076320505340414595000, 44471149579836308636296719163859554568629610315141517908615274320000, 10478292312758076304554547096558553166241776609366069655261482200000],
  [62978338148174033604531677213544119884965375546710891563819783850000, 16496536925193937054245187561002579066057556846860334291822306370000, 20165841098830317331456018668886146360505408934257171545735395160000],
  [19993142757905750484856587590458273307840340786393664393893544460000, 45759163804671929680477866000739086590572693735248791824766016890000, 5794434131837713041671263793032182557049673209168350922556522967000],
  [17891263643704972301144360069103256225328913122643756376556954160000, 21769643714599463297766696674880904126725539623977888314178668600000, 3680542315488973069640497010716836984351991828342590288286972815000],
  [72267492831625696134108221791157232487268037323261735960054316960000, 10748912899821417823617032581816555896001600510569667746405041510000, 162392691223270933449388833283804867296158486039674181854681579100],
  [441783709368085618097504429649901736931644533649116227834506756400, 34497292713067880360495460738194033743277929553663483785542087260000, 35007852848660015182488970194189120945541073516419950406809765350000],
  [20133938194569673136753685191857317900789095703273872106405173530000, 38894856459861127112083434948230649968274350198353435058368445210000, 661524692217422050037297454956294992176536854613044442448500985800],
  [5246489959344481297741545131741101867694878492639622722761300983000, 49487592568685959562780153040020959149432940138948650293715513570000, 3864686630194216772692412383038547938209145602823417920739976112000],
  [8410178318342261208959897342224175704520645547509905454308732803000, 2597632021280211825613773949498728688832003844146774718248773390000, 62391119903284363337144649075424449605198998613077421276700652290000],
  [1116973014792802887725982089341876684631997519101344053012414210000, 40660309839166565355863980285757485906017103835368167145447547410000, 41411491447603360933411059286094664934397810594092342351756577280000],
  [4962589946543302389907075147832325538342589093837685682192521358000, 29991819460541276737967198101549697633090288802777764539280333040000, 1285311770939948027846236613727920526104463760756605929927287348000],
  [20121855975965658094817347464432801530916555121812998111135987490000, 34548743190804304664453447333078989562246650431387988952996177940000, 30774863537844151415111130903405549024117449406277160764532621700000],
  [4833618434059810375093795328011560975867023974548276496791978922000, 44636966635511803107479559009307739181971993278378916359139938810000, 46304171715088161421681172555581179160779211340199659919174633980000],
  [574404181410799481348027042866384140110886682750152927746784640900, 55458127882170599544627514685123482218161751182691506925887559270000, 12513860569090184923121088203293596735971002626978800610632523870000],
  [31842394306265586186885124510348931797852342847424135281319969610000, 36201157716743414393782743037276832041200596447270047760144576750000, 21182246996540424467113623824940845902139626356495249829957832650000],
  [9826933438154410102451141156253944573702263469294074378854615495000, 25829004481598644914012793930234764144959659614521203422249676700000, 32826752589133749880331514219430448050521011395434024425062703100000],
  [19818600280675362951438417606350897731420969128497240123072535750000, 19126823357197088318126048862350265527032536047474429715490602310000, 51744215306830521696140901772668112983276311183863929555506682790000],
  [31912240534546607922790034710768028889601920121953952414415166840000, 489432927902090377589788515189639256579259581330383311214067220500, 6377392314630283141468656660191322561105796756969287869244860782000],
  [65964402336076321587564966279863859317311302021728665582715698640000, 3173793600401234646927558258133201135583440560023442002336222147000, 19484219768984532455705069851541011372118586500745551868691372980000],
  [21530669925690173535940950421809995377422092533161679478161722680000, 41643010280614278827500989323437641285109922599373260899923515230000, 30738921788304232687617460853496571072457344471845083408683461200000],
  [10880819680829135786099344676685234194641730245442359588141588170000, 42659903736177577001817878763602045586384931261787275558469291280000, 9162980805577960720659130910313413976133542564189010061363607511000],
  [4166941410207935460638474161858156579128904276183163253624767234000, 45922191408141878626881596583133487900242902374181436482737643370000, 30403998265207473838307383079132133283629677644258853636897227320000],
  [51365521211807887915755988296992966357090209404342991115846217590000, 24004686111476119901175341758073840994371327525718630355021617590000, 22922425782276372873023468072032985272283816359225201435295279320000],
  [21261781507895341688372201170345751230255318823682154627896148150000, 9598766859124911455417295275107246818406358799585523846779216363000, 27406602466507796938088741955401535903851870894433217706896454620000],
  [5725313282469317233099119926369854104727455221135644242028580527000, 39588305810301889217877238466519758175741624569579627941646998520000, 53793850950687135760482699657723928175293446389291760999578596220000],
  [28297055628032790751092989233233903433834663946838781127498723460000, 70171385895905526385804936555857729830997077150573997586757713980000, 872392820378535647037824825874242348708916773634777738348760935500],
  [24981868389624001671844414064947968618794002147524202507651268650000, 35013606644941119078408423988110074607686257616970399889637974270000, 39180039441975902027058470031177833350340009372422472469523635130000],
  [137635081654204076190539374594204565043073658225375975772527884200, 1693371269665175034703800202304849402903371518827022160888058866000, 66429441633422247526684375058237961306509794536868219860964319820000],
  [931321429984835452354498228818616762916727774536757788272514758800, 15088741643148727858822301304658507514960114422425858305386892680000, 60300395015884789401054514499609640315520977056447782009399403590000],
  [39573640337405486765903826063293930325773276452278658251559536220000, 35023659399506229379611379188775171900656911639071992759936362900000, 5253608188833040713719079391286686795999302570913430034880952597000],
  [34696365588268240059902737870782981195101165152761936010244145120000, 1449785414322121151949232152323690425624972367425939469063609991000, 52739645182919135982160363988947543698956901268402588944527997130000],
  [52079832403409191011876535504629398357476334068486557707642233820000, 836972370713906770922270515803748382996742297956618386288284960300, 39257278295931552676521044287275390829028945677413867260688183600000],
  [67693737049824289241271802797877198322436676619140352276061338080000, 19787361604310628191119654221245705409108287900470669895650540350000, 1790019050943462813215549278458445906745109720991590690586680656000],
  [2583952066459174768566268717393672815284412242341649937172505176000, 4561629825734220692488325422974115568048964448429114826745518346, 66166957924465113825859909027432838945051343829153173713281633660000],
  [12321771801117139629729463043711346859422521733077593923632463260000, 57886179059070812707185915649199938300365880498933421089159808980000, 23964817365850227665955183346338658959594076994127451185403098950000],
  [11248735241929642687368261430413310063558738863390787815790261550000, 442937196471667076495195671253463217250266123772162823998430779800, 65947075263712921765469152757183898051902724238598182353117874630000],
  [6031656879466539395662881629618038742573323770205954276588553543000, 6409688887829174674982324530641478288365859533065542134079151181000, 31300124058676493336555752026757273975259712965204064302791234720000],
  [14848734717684465405560054570943617913267372942623754924339177920000, 66127475954011723816540964178948318405635069761193870741454041130000, 18170845507636931058003479467615108526846793588485244104400339160000],
  [58571790708822639372900906750635106630146424750326511413163700830000, 15930243140674277106906696305085681154856424351565249384879008280000, 16619151378322604195616687695978865727068265795266032907123138890000],
  [62985571765282842804751583660318893756747784523168629102391177630000, 11252181877194721673788257055478210996057030733685591563986152520000, 22247561810030759181155479235348897580476273133717941925348501050000],
  [3498066642336913528439808982213030635661493917985059949174331137000, 36445935483692239724538760178480029844093586904256941175973666650000, 31685099758133905745740340601625728326575317614782229120231533880000],
  [7776091924497038708893168075438547755753274950338037069965489625000, 51218050775803555792098780678944026901434611396605373574425928540000, 331389839102602867595835148423687127261423537283795022004568076600],
  [5153780056478526245534570733941324821757074764727376774939482403000, 10074544326442703944223289135682730434707224718699343670963053630000, 9010140309266689946225159964686084043735383372770978385426610685000],
  [66558415405498182293667837491240467965765321617004750921534316020000, 22400836199651896753654393230699277905360854525409568903835759660000, 10150097313119001642772516737089401807975239677822149172146350040000],
  [68717476119807040349919015867512979763042357134816880326524274130000, 3822828217175332066956208919913881221959105520582227286261928795000, 24174454501009773328087399379698089741784827558162026757777163170000],
  [65957842680003688684267372821590814738731959544200276209703897930000, 4802607973448832764307584731515250931053892116283215353289198548000, 5175361208754705398521723728370166422904677905347738513383913745000],
  [49223425885562525409386009944974577269568699416632567655785142030000, 18817051049330704066293743309978815854777333745331339863920181560000, 26174099503775360586425291351802283357946235144462572139794469170000],
  [14441818310422127748323133986464567604060202192898456588506408190000, 6372894803089824894636496941131494154958519778601513202596174479000, 70949365067257211028537774442328655399830327572162601788355726860000],
  [48057613855757857776758973839755519487496627413868151449851185110000, 34751800588110521702298264596606283110132905594411068982338203490000, 6536366953850585773636673897335830272674981603759700977464223040000],
  [11074992009601375344382137538460220541941687941356238839808713450000, 81629461974549825857227458055651290843523787743790004147076492960000, 5484849244949586518389652933013579802077537691483128642679391135000],
  [9731667640897163167252665715495043182599753784720164701487900257000, 9550833484722897516687688647813755203464899763075572519553245971000, 40501758494745187320148802941531588446600392848844661199623293270000],
  [84386209255131045787268790815442015752273549246533630124251104200000, 1233109653305761362717108502664740824115295788703631413962727725000, 13426978408381382188499060796098479487099868061279383499990171100000],
  [53092919386097167233266339688947052997563111794894939092268132770000, 33053482899065795383954464887710265693168496055903095975692125900000, 1056942993684865892284203154186739170729898343587067782154533813000],
  [57688652933745034865114529276206776477754942945824407060099737060000, 686506221314956628114997864967036228451475051408684036746956719900, 25301477387536391512335473661150330718615289744490420733587701200000],
  [472158254184881137703385492164088148159852978219397443316533240600, 83902864380501676276194941845714925131338119144552082831666708020000, 1360274891266285819796440999597169370301600822340096710535859036000],
  [9990975823182479359955166874739993413938881130101039967885522001000, 2614599666902756979058118825211149868661343549349480216975147294000, 48025418420116049453198092802588191906081810032980051020888353940000],
  [2611705010450717711573929501399396429270225767517406204812329683000, 17170468756327558556484163233028302976834021573792733028980775360000, 76368565728836705465343829264317002652107901615580550405082527220000],
  [16524009200301160580874459329532301176160776439951066249878569430000, 453881124737401232542729982812668665126124541568156740452552413900, 25373549835946002952665954721368311555270484380231567853969195610000],
  [18178976583939638256269070547258038514967925536294066979561832020000, 29500382913459491660364822533765625469112742759806535022185505310000, 24970600137975233821132920709448529998470329318846232076870888530000],
  [38637438897981577862702874382832070201279926530048469867560784210000, 6712996148981621063760205342446616390121281248471314325765171944000, 44755470143168011616195367059634561756119138027029199419892013880000],
  [383258151035744788990450435186857093540483866990405059710581152700, 50953352431700665343474777610554211997019534940242154287520823910000, 27096280587897874133783915222949912530303806174679308879669747560000],
  [11507534617225606692637700904302522466255986131462674415231673130000, 64387374943337859050561541011369156405493610377930037236149651920000, 13526253892206381241578031270138541282117603832594889858403021360000],
  [42834631196163194596853507589540377826917891690836013575276526980000, 7917341697175936590325475591233884657894094607854565186866381819000, 18060809228969313693477842313947057532727052501595234976617837090000],
  [19859832194507294840551785463176391440631545581958804219236217260000, 13912704531672344879151732223846491921688532847379582296210842410000, 15666152455213175190873849110866126655679293273545521181799893580000],
  [60024704575641289610631854345144855889415359739992379028060568280000, 22203878612160893096324198359854261764592035197510846689304604100000, 14039055893814164856820930265720555639324069375608318570851051310000],
  [11285659420606277529183606337536327000487691142649656297580093830000, 31671949814130384797212804683981837325917150538223346424078140670000, 37397227957246863716583608552275274412080949101942737314078385670000],
  [21031923166213608451704679586431739243933763540583775728742666960000, 1552474837489454042355043358928244587173378947339643977442586788000, 13630265404560845949526465099323592471133621717128921141744963930000],
  [1371753317807480546732352180438391137127573568477588558895585624000, 4009413129230368637367569971405986251345382822940898303441045591000, 89213648175351639702125254061899728888491539627456847907588836700000],
  [40955325467632242394952401945705053573964600107781887751245877180000, 14010880710848354520336662334661079481348442641552852797666252260000, 44459977211756748443734121258623480643701699106375285163497737740000],
  [10204258789438176456044682927291115905854039243126194607244709500000, 41015347261507109278451838011934876563769037021582610230526037820000, 26253853351340639513949660632125933654583053614169626852478120800000],
  [27942265882428044394471182707417527177435871540025993637028604030000, 47626066576436688551448975558011625904105343776107611211950731350000, 3512685053912461828536262388893564820930920435176896285007455927000],
  [8808581324791314356649980218446604988519538662218821679406023845000, 8945054601050688459342205276970454468071753403102905780623970358000, 16211673000322010321394524981577020369167182476901122255008558990000],
  [44564141888767952508013763449279565853558276159833048783785835210000, 24283901764021614417774630421277056946491638089934072957169401340000, 10713254343499011927702938456320632272007476608361270885367410690000],
  [46256619347549459791964390695715886535219401778557558455164390490000, 4723006149328280698527151509566817665230236807991221640781150485000, 9822417640691973017148517636205385105571050973151713629427807085000],
  [32883328935730128074089112367040228005956602692593148268000788870000, 4834966725920090554589057476939613594505680075225309923893372128000, 57561768643092013452524914675085413159971871945702114205421951530000],
  [13356569997223689499976063894427827502613623673311163853616166750000, 5028808698754465294483168010517607924580256405521870312253535398000, 34107384580089659516917091646500375839114713827883857207136569640000],
  [4412106496473397481612342225856587229441129381781272428179074495000, 33107596589446966697420133013364222819154508599242453736349746140000, 51943206892587360559246080293866318463501281689345811434815208110000],
  [11293772438570963673619362696352251895768246705083931012523002620000, 218178985324347246692380067635033727347573814724001605627744615100, 84163702573093035150138085604921836039855245503296654604170542960000],
  [5835313179746080162351001949167980129612317130069761401483253036000, 33321325662646222829824596825593163873751906801491998953804651310000, 14075338100924498017344174561129757669341189009129744858025385180000],
  [3554637686097484987777021538185911041586500309490964343435322783000, 84478212632264080201103426196604207435873987779212237352109339950000, 8759980257233939393670197845282407746690332037509979137956841765000],
  [35859212791374204301445832646390571131524824686191273867596658810000, 21789887671951328238376101465021962139720751548027511032205324580000, 38837649526849871738784763254568291078261095049688394204121111640000],
  [24765190420360545127865979666277916294865710569840457707289493660000, 8394304139306759234551603227355578511808864777916059844876167007000, 55589263843363182381424096023611122024842802048557145885888781380000],
  [6742381343637162105749565150724216746577166301915487315875453492000, 148301949533036939538371332612839957517392402115590223708454920800, 79738651858120350802597362322014477255971734405969219056135715190000],
  [1471335451915186704108575201918292939893655832975098010804526881000, 19628197903205163480331739689432118414806257006179110092894550800000, 5508756760719335952328908980604626727083975683424896613001070895000],
  [15966739061248207933697356336813101513589080158649473998831008600000, 60159163803893692105235809585264137634140051204130655742191094190000, 6914755309035657110153815623010559945608263693582133820443030133000],
  [10832967388016218765635847789781731521110967300754672487158876730000, 4465899922717988313183515478411485486718553065454002000478150331000, 81824904087982268045991551258436857555880908198663637486623611230000],
  [45096992087499876268211004909000412914986673916979533027666238880000, 47238556353143326212830605528804777952597634079589692088895447150000, 4134653097742818478669069250395382361555941097092794127893828654000],
  [49286793468528562872823989233497269907718639714880251312027703460000, 16538765818916533140538607087925925626077125132247502980407657200000, 33100621088741002310182743374529654195112244947611059286330271860000],
  [4430252521708734880409392979608439392306308123628416805793671230000, 41914318426723851868529637824736660591078097716075356209410430430000, 877136487222559230227474449444247585987627633405258866468429803700],
  [15964566229280959150254663583873618206277421766103882225426041400000, 68283273330489147272319299629609004375912834049247949790604448270000, 11678284271260905212304517443266401493432601536396699040010716520000],
  [7034656217914566708105621593361420546032865497040401692105489257000, 2234086274380269497477608374557519965895462742920267671235383086000, 82147589940917015494564504683507945549807888955898191645307615280000],
  [44829114694579695861738224036019204426626698338425636675667369930000, 20825622948009261859159766679024789966282681298530620770864156830000, 4228523758589527598850035804047381140066716357273007863435983303000],
  [64774453823480144880132906116458230198872241093742387876437635600000, 6520052933674646277142655197675543227526420918270286142175014489000, 11846297534023874631913413663802972659427231864785986933137059600000],
  [619334329724767355894294145412421435202003705460722380515638552400, 7952303129728287724783460374089422409294573756366760709563904483000, 54434307668720692330731341338097254414640391790978467015708974310000],
  [4116342243464060620175570281293346807792831756267466864751831341000, 86394298692968156383263320042354267342729825756009169355954206080000, 962999478981198306119430104294844302068012673329595844002902465500],
  [72313077620200213715362618817847671756255439859009953600370303120000, 838549359560198568413621489718721120975872728057107051719350799300, 4520754618650904311614368157023502544671074875625478265306963615000],
  [76721348709591479176601080394886213847412960141414812424768568550000, 4724821849161677560790522053227048625748345171775141417818062848000, 1584090433282462690324532432150867056780979068908728599917724379000],
  [547880900212047546133342765553374719726715976789922278506249298600, 4170557338780183834140290940454751598081639494543582405030897763000, 4040908977091766908356949659574742455179059067441384251801602862000],
  [46711253237142707018974424654048308433262657055622986005200294000000, 1215634379021324804353324295347960887440148133129769139487218789000, 3889689938331832119721402357900096809298397442878733809302397456000],
  [32865441177244457574689540769041318260591123999407480672679804320000, 30909416089593851638927117972591954216852430264231092447758789080000, 5360948729038173316982244099605530644823851757335789319761076238000],
  [90265012236775525806130789563548965401650848804128807938465747360000, 2071177749821840600553946774147477994236760268783885543589787496000, 3851846890002942801287930100968095550635543357630354801330588166000],
  [7491620994253573204496362842948584190530762923205482136079260707000, 628083098080579110413683262791140300199751966293967001575577188800, 5874585756430478260425234382131758654938075453693972087578717575000],
  [21679429695093980654393511474837000293797930702722378788744698640000, 66499234537918313536373688293372381540950469045657756741712851820000, 787896260053470629248558032086514332553071031820464347098179040700],
  [72212605252152537098863869339875851746539212107281160757499667010000, 13995120417620622945490702568760407498847526214849459113892884060000, 7822679885088993269576232420005742603801658236471055242356959104000],
  [53517972405962085969570117323165973369672087046877715539889289850000, 3925751145747827956796129455863954620931882626000158835562030333000, 20834178715621534268725833875523257223415764942852571060339767480000],
  [10809701985520709244285622522118707529218255723967978255395250030000, 60293248789563516235602945167344345000101560426532635547860492010000, 27870135127801325343393226192311043043315496835377762324919973540000],
  [172641145242302305100156400257002796803946761519967304695892788900, 22702264395958416917727432482222166131594210480897276855766816760000, 71383070005579007409005602811603920880837395041584513308487823050000],
  [699121839747637288518740096689445458648862437367025342681441657800, 38671111719369985283517982889693106403945325237556314881466669100000, 839087344700735470565445528466983076802394618315546475976660470700],
  [975648151993347426665535574451883292076441754328959016453693775100, 50041111990089800062166356300137953884112495425608346487424076130000, 47782685954240934485343575767736128701106212806451747330699942910000],
  [16892196762517438262526313114628372308628495259395474711741426090000, 5543546767880016591915560239585063495288335102468346297260545286000, 20038351708792876319963327829225968023675139378437473128121192130000],
  [14663056369499598289218795617424446808727422255316328180996657000000, 14304903594480500876418236852882494632743729558561132903268666330000, 7067986418772989112876948279206124639248733307633974993756372136000],
  [40076137267735848818177625874746824850203646522208498058624551790000, 38337760100081329480479666623951790467959166191657058567345205870000, 809202228175074829098044419318408442466419318174639805147059104700],
  [34053506675374698954763409181005164460537291749258479241362140150000, 15950688314989344474597675947268629824140214555329523498475069650000, 41731390574293878356621231289125019532426437571763642275739173730000],
  [30282668234887879002142152902351143705498827322842023296909110540000, 26982072723126820644066011153023430747150153703795705198360849250000, 19906920033292624081630067262814403599061690138000737099444153570000],
  [558080978504064882627867232569857249729272895071218438864644934800, 34160631991931215931844263596602287129706283666922189309128470140000, 54129711914354694926203388364385951845122374164618070669360916850000],
  [33785199122025782176848610699988838052081676552860773928775280840000, 11551533651393875779130215418985042398150852860911979245141762250000, 51460011848607710847593722567197783303009878342925558542100856000000],
  [3563980957967465370834650676544160686704254682178811899730694267000, 82789534162145802863865853913556211126117871178322965602519280680000, 12747375659161734739006794891813617938227673584619937815495185340000],
  [14318743635781904455925036906226458217148910629233813121915153060000, 10729900349124987627489575086039454738905274574357904638328658690000, 56257710285878816241981899763805680798972653157484835131264391700000],
  [13417261608022482016758164782984467876161029106011490165463243630000, 13300412776710177819704589243715946871364259328721956505453091260000, 63796849422527815058551338830940642752096260160347430541254084790000],
  [37015628455033313000601794537220011105546542300717040299699062910000, 11453461630731868896103386473155060423605679273230666089199010730000, 8637072880332265306670823751916055732499229537144815777146212580000],
  [61512687677655000249494061045395868072557778001462022751820915690000, 1144727474871260894112282630149658714425988471827237713184682357000, 1371212719256321401323059961537412132813480232747310166758605557000],
  [6085268640352271711554427160718013039195858540200378727771596685000, 92134899608683166877599228179103354473808339330149004249980411820000, 491133958058547970520570427941207650978841554524442819879213568100],
  [16918424336136355707346858712434381760152590248718574515235992960000, 1587629480704478499865514660775980682291026924360415430215984335000, 76246372411218065333834616680980464962304006338943344567449472170000],
  [12844529964464937382250022529107310906550944083181647596318043990000, 46030139540950780577247018346790156049759947115311576145891289050000, 29268400582649323051420157439941139770128278580979641406613283860000],
  [61100604273367018824579976218856505612116944917651897839135243250000, 13083342953066463947280395950624683702347898101889070876720900720000, 2699203842054827708873945005125572708835694046786230810335456372000],
  [23642019442763323808676342990598487619439001768196278550691451070000, 52057860085614127664552421008964167358796525714457428750972398550000, 492059239650744513476577939030942820016790632660817478018415503600],
  [58579515050507976809764611230718611818254035963818335186159736160000, 33433830746116788898353587997368400514571302630093216032681612910000, 2735976646444833762177967268868947925743368438181029713733471446000],
  [10657822284611357962380597988167256581867481749137423913238756980000, 76227534377106288170007950355642088176912441460547319332269123550000, 915652870177121594366961246471783231097284106915173432830480274600],
  [78459827248340320116360553538061192121879154522281575783358707380000, 17047788778272325554357946327027675247193593339313426397230077500000, 673304254385300211550375721161552012350370629917944143843725811100],
  [36892083053155307451585740626906495577345223132863313455261077120000, 13640245078932603238334385333228500971236328354721930453450103440000, 963292958652541838048123338812912058570562954239792206666747167900],
  [15382762107101026019257269670596811455179857256670458999847088310000, 17225097057514455458592262145220579930937606749568653333519248430000, 30663643336350191188974762594799956829665826374235961669823919140000],
  [34181811111020150473787239950293277164671694722990266114918584130000, 59960345360100321392864513011296705640180194039180499486825604030000, 5018685496826429496071153402682038867520158660983791300446330089000],
  [47449402768773844311472356651406328598168612576665765459171345170000, 28642971682612225375757029583275478541672775653051969861824629840000, 14344418089093909869529280753893738686738714077935482505000110060000],
  [2929504524133799858734250455413713741119329473824045374834820339000, 3421761720885159492944858923991909474798576347628224159925675984000, 8949244469255716893954313004670169691581727211399461093673330735000],
  [32988041587085456689482554628132183768832414192736608981345614150000, 323170408312548164140675094652739825468272028457900139436594603200, 26437280588035506234307357436287249356180428371920651687600664320000],
  [31664797836531889560905623279160805579630131256622757349648571950000, 57431218699221339647892169871741215654600930523571855108748842140000, 4827573252845457805730923693821442437095787110740870614953194762000],
  [78304510925022526632321198865028758434244389229082734241790228820000, 4018487767975109594523786606989070572590431035632512503911794986000, 13333055805609663979286886220105327267534894245586681034727319030000],
  [18248129303568608469535860081570364252735657616226601927179131450000, 46101837768726618798512819740290164737800700468703031655492439450000, 13546988188239789515341163830261106878286106753874748657136526020000],
  [23968820624145631816451684279688680516038251305611390811069458310000, 171295878924469271750890896518812751492650347101609988300977108500, 58378495239218382683168962935302921494819071925271325378197351340000],
  [26715218995476686516633253464795175864785251273173622232410698740000, 14565210618646104523781035638462855339509426425602057384103239410000, 43186629795340958745383341826508004126601209372490732048960697440000],
  [4862940916155615841090252468471071166727127074064447353866475780000, 20958164065881641540471935249457951573206740680335466594986752770000, 11426549479771949202726917435460206653725760876771851134686627540000],
  [3391958453476714779911842615066556455143207454485462211882412834000, 23487923911635633079462187713337260472941872376391804708980210900000, 43064419506507811304924008692124500295759405609200799099840947690000],
  [594894394037254175670557367635493323631082604295151402395552995500, 1366191411968686317672220678443606386085813975138060173226897699000, 23535401968479833885677660892040540234062121656918389177298002060000],
  [20834535336008382690017179353511096257965361074877004300585018810000, 9015763740948055391140055796181413990347235161159707787854332310000, 2487316155374961759228743173807938355173847120947322446428224757000],
  [13384537149706283011641864803488181043035802567769854369972624810000, 33307757988572741116611760019060541607589265485450731479440773160000, 43418171876259144082708081976407847000459715133379102871893029850000],
  [58365837056612693112078636623914558447992705651808994322391244890000, 3519327054001234020477850436618757894954560707872439833682496482000, 37138668962233587820637957179668006306608965558811820337662180400000],
  [90896695370779304688819966882706155234397979724704499036141134580, 90439978631339207350151453890316191629710259941204941564350563830000, 3657000213610424944449863805522525708657033133459050200879628579000],
  [6514184191724962231411029874841132996504372176760923572922690005000, 70033938067048191500667945483780480944878386425758966650320171560000, 3756488014863942084314594130211867254923224802172193697724367110000],
  [48232518512686097022190224054316537328574077421879075110972409080000, 10638722026476606060824221669135702448471422175623775713768324060000, 36693673611011265435040423982926921093721380529343145361496729360000],
  [51315718001234654216499068168560000942371291187829430869921570290000, 32937138902894116996343797419410371894800805904376418486091245110000, 15641635977865280649904638620005794313109879545118190151205656200000],
  [10067106252123785376823107174234727928436079246140600580289658330000, 56957236954947017047250615953914021066606543448235010717378370950000, 4356300297791438848281326023200056117658637343415662188432765040000],
  [52373969757706223022471986047579227835039671747912535059170213070000, 265016083849745536494251246316797931407396391942845743461669763000, 18106669090129128915113456216600262903699015298660099832738670560000],
  [34067800125209926716507636542214221383955249879942512291131671420000, 21019096895926624309122414167497281539900654351237546573736243890000, 11507313406695441963106366806774989053724682738862991672320016200000],
  [8981796915031379608711076316179923970513942277840553592997092781000, 1182450804749051663356218634294462582681034393370758835896912271000, 35638958916834247400759028718835151084142332577637152164673774220000],
  [4838562814958744700003008581463802708074979299056625487179772236000, 18576538657397932593784734194347144755017863840482253112302799380000, 321684955842041004004348581461868015228238718331533824280447239800],
  [6095178993749332723695255349269346012735479185247606272021277805000, 33137337782226267549312140818649066365079000132471007629610596120000, 23128918204735470333474775226963037100628448001228570464991594140000],
  [1133241515186766050877116215742636606811948609971369257811841671000, 33505475918189304353223708114315042637170023284710161829440113270000, 21184532255431681690668962692165714598496546346712547063412664310000],
  [56276745556044807096967967564620995812510040080838971213848205760000, 4321245408638639610069306014867106908525462448584476560653643547000, 34191376672697866809443901594138327101020203026127749661832546360000],
  [91913842191236203396723101645545269649166785393330497221963206650000, 5546817040486831630512984218832308753054586434925433317381760863000, 1695384208979076332698421984416434132748895712969652500133306525000],
  [1474501083029658882511821093276604535242541873143587675945675161000, 12179053478290332628868693296241105032803058083248417630936090360000, 36596687566670569513300681127094361958387617113474406666646668530000],
  [22531670360773256803772960687216625317587133251082428024565691950000, 20912541730679235349676841876988613833611582857775511600133199010000, 55118162950204789004287585753032350217356337629748198271335069290000],
  [3053908637261667142914207120808861335534288541537825295867953208000, 3551004025636827479740055758118687629950717993911499992924618861000, 60602786633303033992763733522135151801886658925633113127809371360000]],
  [310708554496952104885219380652810644705599804548740605376947263600,
  145735917157757823512297318692430792498615868074006159004377589700,
  410299828725893490844749183870993658905730409560207432982267743600,
  231402575957769338680458985677199442060559154902221040994451848200,
  238763687593556764811423044153249164457870919010168835496144254600,
  208258467499716117594960442479076786450219626442887281895022897900,
  80744108691786638612447898149558330172772368945553868864212074610,
  152525543064239070843507283083331274124989667316330080591738627700,
  443304103453151251546928563868744734470991608163364393184578649100,
  128079886153793119787776131000955025934987649524574976514096577200,
  137304749820957749638415980793134834942185886435090890743089093100,
  107735846689331223031212647916974807568269087294628034636496475500,
  43463041494543083900920454934050649066176469393360960758722238920,
  149568140754890479248712506828228997227820696120876159625191459800,
  489902330946035014933958742665883416399846892099452127763573582300,
  131921561528873107441349078491273340936378790326010974284582719300,
  130191083761892114901466859443678390097607184252415019973145490800,
  45403156490278843473538212834617778791054434881873278060161645260,
  99453887407174565132170921287387306231024267211890009941632001690,
  92841163449490776667650572000099285970337906030893986147686700520,
  229862423628466502100121790339771045641248619452223958014574713400,
  387285388329435263672060996888597261536757666427485759940021275900,
  27929292631452756761145504698972865656639201864245743485201733240,
  116653422661010715226902928371449254754758456368646521071899110800,
  539482469715290403729392526071496303265813061023402992893025626000,
  85090317495836197401136730377058696759093173539723558601411962270,
  113249625276083565641143159792377156160486671284698823420081410600,
  95000804635388826855440972822424317612947539447052761786477624070,
  146279205853469363477948111234097749048383477708786849378796042300,
  28298475785861984647454977667140938578858441310284294245806037940,
  129090399949493766372503875494839069546929941548826869333298982400,
  77983590685958525952196400247213674385195592021706450855169367040,
  6890837031390207998281058336387307253515754933222734532177596049,
  92946953123154238787259905775507960339690595102755385727035043180,
  22152854219615616563103116753424748259187697067622804900347872450,
  8871229095724844654973476100110585406612418072230931187188775682,
  430391862983716101814438259898079207343329896513988296761990036200,
  36192697820634437442086629936401442136883480673003179891461938930,
  214142979956941744749806177869835499493023061226890377300209403600,
  370603817795395809898390045523749982519874831839302640482455775800,
  289131788718761650051402243907568981625953502816271001665701216800,
  481753674595230200462841146283204185406311156933635776246402818100,
  212695979962431829486631171870015037357668713250385478974785055100,
  295871320578975284107322580513728172476680460013024690243877168600,
  280144233695157252694066659842445394658903034577090226108354478100,
  50138781470649987626119401934937700556857343434033239976990690620,
  456362968346631861262547190848181211285913985583229231411705334300,
  360127045779703446619255651807189387050356371562267510947074046100,
  23263141873149940371400653344244804140051086773241552495145231620,
  13545839596423211943532683151826783294772566131787860282866822530,
  390400430500141206512460536268015634667014080901383121035442814000,
  92575086618212507565842447412679290613782753016840763713767262930,
  28727762489357970743709235348098069920778628901861819315850815210,
  54818228352406449965896005228250163762488120024660450149644017200,
  413300098955243249716020027477936450510256928221646854015235160000,
  172490248307052727957183674005531779957277165975370027934441584300,
  172849717856763936215943179956216014272122323672059564771086110400,
  109328556239967723795988847081637331652443452596353290822682752300,
  85590626726810947285318835729056586298309656529411989672716145460,
  86174242361630743361245832130384124124496329498208486876728483520,
  29798384640059240993794968497405096008300664296241201717422177350,
  533542424230360197604287115203178352095226328794082756991209615900,
  393768139471538552001708384204143341719364283920657724881696576200,
  268595629232751267348212691951102610620601279147774257885191129200,
  60218751863023590503157110896197042417988238150409502584334810070,
  67334213619476430823357072536515539007971825298701968256659992020,
  138790849915069220413908558991711314029359860650114994749477096200,
  52312792695573686922488638109021343734979015762577543051791120250,
  264324606878759839870406879484326063969403882321451916709649480500,
  640669832357083867185595962265633803828701810816578756932378673200,
  245322328697361501438997293213532471388789308900817978050102694100,
  96832969707477281616299839111426044429073378445801895942240519760,
  537276419135120877297732253413537634190095500699405803805776914300,
  75803575091983515482752270614517017904522579454896997727563371940,
  22029341787739958174645985184278608975029392741564578491877610230,
  54009811247168704548295601887923251269386129007611095318470597920,
  56931348416836023774558240649138485564737740118920714783739592560,
  335943012357414022485289896139410394754160451193264371031615674100,
  41705803384307838986881571822469808870058418295804729215481993020,
  58688564779178121856602405344235309454274535610515041499004070210,
  156667470547174923251190642794298298148783599887181761704419759400,
  172519953820263643292987645601755645822681643439882599926050590700,
  130455559220800307243623563459169640834334557310193582654860450000,
  98861396330618024138013421280404975658155944079805853976087299330,
  7814554030935479813193638601523591910817252536935347672625639812,
  101727061239555756950523034665278546133470196831171004309438590400,
  193171545633173549607575247603374223757688676203915530780086491900,
  34698629926285058895513509727600803441874448343203083087823748660,
  72110252146096519743197762201260818727293703328887379262785690040,
  66548865211825363203621627889247638388116676252715700388731926160,
  317998356513158640244377323684390041182004684645594067551170471000,
  142373693537222038986387992657385183650302514857100195626574662800,
  46167749592885151055035467578900292645169680170815643395935121360,
  72130062545355224022404330306690677147544252690227739402921573800,
  37543815172417169922174570721444660826805237994596151755804282310,
  51187243782855619553469043506249171973890485853878437431466451960,
  396486611668800833371895709923832642420137903077773742070160726900,
  387071105150983463795402194885565804560123815715431180685577808500,
  235134091573744264244209331913678839699401218687280760900887362800,
  140719066085445825884885573879502805250660798294079069448327900400,
  220308836467335790608919583147338622821205249202449912474799596200,
  24254614073473860052483105321700905774236982856421163345611074910,
  184678620171308109771783768197346835041586175449440380077099237000,
  465197980818926173628723527154878922341065456324146476531284968800,
  28367090166614833732338214068007950769854634066282507792381076350,
  72785943929649872514671208973692664575375126683867661570274385560,
  558316574390057196893981009265290203029875293547741954225869753500,
  77829084549104493471765339219341498301984133735648330967886629660,
  56144161860766277471755110707963632012613257243088928282833229520,
  275245669958488901984183690873723712956190491270916122091635882900,
  103343751878163334110414846253140468417273149418939041344691106500,
  285343740615807582276840035035425289105874820936164058025827459700,
  137118799582154399246250241700147342776116639161653614017460987200,
  289984876073893469316304583343883981105101865680169858894729803900,
  359372999529721122158602620050668427741707429886828404947931839300,
  127043209278858358683560228066104164513022537459069433429836492600,
  18035336000118874319638801865520651308194592618555529946002584350,
  590503104416764846066386892003930840533253524951671814171821762700,
  269099076386937356296891286966390056757909733012185358409074439700,
  133203970776045132673975280881383441664758047258171526483643040100,
  100328942957982347513544056193779730820993830654749161969910222600,
  94486200034180944511812139839153786567157968150224793979216352550,
  220176385191072028447455453706875774380800814490238504854501203600,
  74355165223744513219044323809717095685184969523259803028125812570,
  149028674187670191701363042818367077167302009354963410976526330000,
  244085993365669226470376760801297778201938367508022179494352874600,
  352545457443508802624989882739794047702882873944056629124425748100,
  132132114162269399630128483401554016689211757515328326604448119600,
  408323573295154829560269818069797904825146087794238593919226216700,
  123683596360651752631455257490452533025364435150031781803841167100,
  44073390077276281977905503827357017847482332685058026515851981230,
  135645549637792662413160451458677003374576792191667906235903283700,
  128193952592826697278229062659593781083691221643890081723085891100,
  136676429580651930307579089268920403555154411617114200072945390700,
  49819705370438136485458969120356382980218900861628954425281187900,
  469022501208313022806387251366665127606661725517278097584696597500,
  433605658939071393822008679139758739262433433207665350698475970600,
  442213714503311186263284366908526667727797436759836942207515930300,
  54562916376373372177981131962486737786593252066730625469344755980,
  219796762169305810646535921900901521532298218838213808698441024800,
  84402788019339698763851944701690104270102204956777104166435965030,
  44912272767218889573907265760355600189506612630703309194494364260,
  329557417043848250282233130584019424635833313883740597507507948600,
  285128894679223546312605457157448264359212079918258791616526201000,
  38634429048165147303080779914827835827398537211406252466057176950,
  256041284315672895169973946058440696991735329043468063676919969200,
  100499130375612640301102169705641372340936709712698290761189354100,
  136900362371342848364464352382164439273767833374148313541340496200,
  97025774491729683339676992241200191419808612223319057100236047450,
  71359489658972114515086096702333000528175093386691331096257233310,
  126640722574918013611312440770722717892866629117273336971793746100,
  112633222254356951558197081408778653319305320315829356879478739900,
  65774274237813221688080741214122465346223154559058510462544049640,
  73915877024305446730397155836946221892614701659708849543056424170,
  588621135889882161751971685014430635818294416239501762266217047800,
  211195342999783196025445983583990545459993606447173535568664884700,
  57786435226644065474105911713492977466699620961726055849492501410,
  12411544537494597126479944075399392732294913111527701511268918930,
  195920210133687072920695060023164877738607745059013891087350923400,
  202117728133824708866057437296651919090687380303029036554605740500,
  391843965354040715776969486669127343204970239668613259748743661300,
  73109995294515171389785457317952908571486960462600422552796358180,
  84665301770303121382431493698075742846297331667527739030122934760,
  159487042021778048574610454619216160641761151848142025599981103000,
  193467468339793224193894158538847447134307085511548199518027244400,
  188806125750742448671672862475927847850744946166859038890667095900,
  6922708788562311478790700004980067189261619023356253134379155014,
  494288886636272443819219129268100813440276592067445034769942965900,
  261150775707751541244989706086041577168193855188276748131372751900,
  128411635970722335454349984562737394175317652841219343787496348800,
  29504472403313546285716477709478723931755394802311239313573734020,
  185916041915034276232457366544811783630101078360830078764490029400,
  45205692604172506101761002618522649252785037735677486465509739610,
  26692090251351741140164253618134006982041024640190589678292576710,
  46081862659681944309943057879556418491476497421350331134047366270,
  414157798715998864817572813229258784393740766227996757355650266700,
  349457914804002809100072694676072540284005147638721969570718980500,
  209660606396792196721799576635111349639631182918888408937355120000,
  250897341756411424354712719767712488806645835401902077923675852800,
  91473820072600880554205076366158853268529281162946703293783857820,
  122247858407663377294221144837017575888004842387600123311435282300,
  304499588533468906436148982744427308516059468187625076223614873300,
  87690038458369940920055060464985726868111714822862129487316368320,
  28610883972914727859901445093946453389835228886404523087612955100,
  731240716324060697893412772704838927750408807367119376345535526900,
  179851637898565232422889578197727079419409882829672025144609340200,
  49790162699570989216615681154365975536075199404172721276803907020,
  245022493592006066966995535786285762074034198692452762597034347800,
  18964296942348158167116669256192498930546833188351989056112369670,
  87752508876513935213907840032030301396297882626002704189202706780,
  70447229252569207034764358548269404868359093248645858887129658050,
  55317344333628569860458761559020100823781110102601811899651734720,
  103968662275624670020071031223163633292627295776311156314028961000,
  127010511522756019433988164361762668747946274943533237309091036200,
  256986706160650723011210120580894830273868971078536082676561427300,
  93932737323506157425267023098490672055208355101358708358588620090,
  39613505678378474993705802950212478308402024676913799934576665130,
  91589498096375881107947017778948715429818210340738519503568416840,
  169663427859705416396936419905989828190614459712677681193661407300,
  95559913146512791556977152754081614847741466099190911902098599770,
  13982159961600189031714704322885728652985133938419144576179313920,
  181225145246492212879932310331177441155948059005825456292304622900,
  269917797151823516756367864524216692241311502426264596982994979600,
  150070611270222535613196222653474210424270744622975213884256970200,
  63844944593645761792492777105307057867016803310079680911042507320,
  20678693581287792817889080636722050718723058566647966139691918000,
  289576539101274682127636450315091778874698206090297225044717969700,
  295054855860306424342815782032817266957111142677487266238185057300,
  26093581248958112544417467565162578222744190210702503885483592300,
  246588394467677839706717650354517313653644575775954027280597685400,
  212183848902608908287235753885047861110550547467934451351806557200,
  29098939803197172174962307400955579050652065463999147108279700280,
  441021644806901438754038033952518519111628047914711432480490587200,
  467732614454781324303786029896691329244807252568317823069017646000,
  286723482248290867799114230756491812317996619834841959128408891500,
  627855906314621876736266001886309948659702297929950532059826523300,
  111940080964682307356202921420102846293218096422548309814944781900,
  207905605140079227864800016346819204899979048764616050899993288400,
  94056934655553741482468699441635457803228934179152934970425856550,
  101861575817702798223770453289619321949294075791989540539987199800,
  467850734587793254248905730891970131146731439208365279531862735300,
  39427575660662726351167150961190289523428084586674833322586562170,
  295350529364820597101643281123482369043875497242343701996908973600,
  507970100079190528031188709294199780472473392400548159230037958900,
  215113731314220630092103656380812766492273204526292577553067592000,
  545263568296957426471659017011083877361168395953009381030959558900,
  40580035969775029160292726833323726677881577533250476279080740610,
  413260133758060337598220308327964613237251285570875246937203902600,
  269785020584638185829228793305295179100756116846599679882991712900,
  109318865611869509149865034678651528995838608699008917845424701600,
  387154733115534128991869010999083089285141478143741967747379463300,
  172916696551882452739814745923554617439093136026414990363169359600,
  119050680768255864336857172743378878966551613180523736239045965900,
  41885277904016063391126497385913199480871633426543388383513221060,
  735597053625465822572867515147489760668838810908480292638766201400,
  91288298256484635028208031053641023531758476390179320914463210740,
  451100101204715140659386793917411592168832450225217096465494537000,
  72039998946928481575760264576254408328454248917135564891968964740,
  75782740467419440009837609407122751407202652557485498024854822450,
  187296021681568337507358875744911466490511499351659126235221084600,
  444942569118307591740977463885906469181658163780930204667102667900,
  143331976296936180330837354207033718320239370402114006452893306100,
  21814596615357742253607437871425296056894693626014752237040500440,
  585264839688209518154065417178811645976390589298158483647271078600,
  736223048923975491687286316886776224064918583572142592128793044200,
  212000976761229232826937500166270666720128104988706025704841968200,
  349662814400087996776622037311332753585582803218702943174916219400,
  164800978798285072259382497822591141991550980080900869355344665100,
  244230115648636675075937010059486408020065557050812657185747955400,
  408436552115337133802803172580076368448736195662758028347382502400,
  543930767563618996615833388896848524980099693714972753424172734800,
  462571267371816892554890335860063227128341032211233825802937810800,
  200188942014478077941769943451786103069226530532035166071883411400,
  376046093096979216142359410830247425788656580946708333058113825000,
  574684062002221729197332615298188118664549755118073241846022422100,
  151745745455553344920140780439118438374654087756241429422501395500,
  537174556337070951304140597914660055126719111200179165531437000500,
  358722083619197046861228449907281772382351371415754804076393771500,
  175199449232146755623239778458515594354305130670767947426136379600,
  90550440301765703582581657073636481940935415036926972620780556120,
  284956883692469970971483816432941831031065503452659997935909495100,
  128202343124529225415119338072282502758366650921808208554581150300,
  49650187038488401818780086325812647284991394451304731976667622110,
  92522376916509512350228933838216885442929578601437662300406935750,
  269400388512091753742994655213826242923764068796961680748829783100,
  494517187853603608919971622544470263394033985007265886677149043600,
  483681379092291075738258376693895955464899507023121620757955075000,
  231359838201931376593909005870784756577879586547084529340436261800,
  324670090402263979987225299433656295554984215200051759241126534300,
  45429594659782393026318688438300885551781334414501481582088752420,
  240646804222764085804944935730573319061809635026852203898826389500,
  136890725559942329253686832031758904750261875613688295167331470000,
  328174898142050624836406984352583483228782072065771890241326753200,
  342027996073726730292630387892505593548480872883168027008037512000,
  279710597241606769718152701992647998619369409804654517114924060100,
  639255646385025119182243378984138396699557289572496045289777949300,
  285118239054170830101686182211048427923854938104773399502408769400,
  284141616777689803758752179869640829325120852566305722802150585400,
  445001305119215147103725171204946914698015913273922944496418535500,
  73442739129360448242244352296068630169154169249437075508840895550,
  93867175270081979706457459149371354391315105253916241051412257880,
  499529112176671953952449530744106376693557294016110461340771945200,
  572309117015521264281858957668271821311238085557727350016142040900,
  580831104423010917639789345962564117409254092176742241893576594200,
  183763925484934020430854193229412323107333648000005622139715272200,
  20642054666156461192676743321160700873200143179998914066462636550,
  284308423813436932394251876987218031710073595835010995433436123300,
  97537667705908066156754390185609501611811020899409406250597400610,
  491029838388344773318714817140464482244104794721614827517364561100,
  291845309610786028697428810802565710779452787074712519917406852000,
  58364745715425569318579158060893109492081779579221123584709341730,
  141839153392098772595894352852452146910558637073066364911891773900,
  124952194545019854059891704112898208389312991302177768358928146400,
  236767201425148386229296347676151906225876518438773899285341154200,
  171240039353543759016826240288559164884448729347339435745467107000,
  226296750049948916350813481357148156292400740601893614488222003500,
  130153467288510852401179778554085319771008248954895627386784967100,
  533887292681410138982143622224455637593940126633217532789998081500,
  219697174261697724526995768021009172308433408033254569191933367100,
  112498518184444480162888811927384694964058890098181305296186125500,
  670060475335352343616207562401205554728661352117844823444317450300,
  608741748040448066708470607300076270696072430431045114427127552100,
  381709238769992868359529139709236797404103108772103407385574431300,
  96469948577946417553733965158431370654378899048670678308548345090,
  231159304471743924362781771028224458178796853436383856256895993700,
  510664707447265896307337604849344393080023971069933537355890357800,
  552614951888666427635751970037067787770133485679010440618152390800,
  339236552117991928325536021286138471010141113944996892150285445100,
  224958059221482870339770562115194206373638898685615160027174037100,
  609090924803876191431537220907311929582976076456636790023028370700,
  125583326343886282486513251947303672198301040516381107551850082700,
  36650196465487810693028733820276950176931325704706444465109580080,
  208444106637997336276386959836026105713298357094878766171788564700,
  29065798674506742969950048504954000271870627324488728556571885580,
  180665910217507724691125491248236217906462302754801366730606837400,
  437867535727663761814234353503368578038658784912356255783601765100,
  224867498163633971507139498890694755785263145851788211200999608000,
  120656523547729199452920730440221003607528564991812868328707952900,
  227140707043637540426494138978408929408457617255264557271664135500,
  30292948666702283436211045259295597716449634738491304596275566150,
  376197281652527226621733771714233217686282475405102071014962535600,
  86988827423800152519018445845244989917826789137811202416661948220,
  300197685446797249625310907746906864725798455845712106828969028000,
  117540460768448386719988785238785294382277536540226936265543971100,
  389370138268214931589910122477841262973873283539339777980627220800,
  308260761878608594678398387830419724204160123825698868461502151100,
  380673737552055121894132390355726609179272545617846283145075296800,
  76958311238603935956876419068750730358264547508547246180623656220,
  238904866627828045630563420547206067124863288006932765230254626800,
  119732509205062247713815829564008728790774188413690121998273533000,
  170701661974095855264609576808362088359739626426646639714390395400,
  248557931522773727210637289126344060310053711169088656282271571400,
  379562359862117076020748502256941518523464537046082611982297856600,
  273662352136172440669678148095329933329942754658306149879671218500,
  386790202688285629278992177609102962865215571366113255720680090000,
  112515742767405321265037573970190109072590602090568474852493690800,
  330900617577568865057553781749699772413944903425332195099254739200,
  45464962703711216988983204983857466757970582780773037066297481610,
  199525114762197635406809488005060530938254728850537450203250815800,
  157118988820328024037834815454138640334785529513817003411677457300,
  32993498500575591694320944505356528221442856478469297288867122000,
  226887264192038390484911059111946961242001656658117799767093261300,
  81277824761434533405444353311608449756172427112125365249611845850,
  116926357950746640059388960599522921989256423758013501600507798700,
  599593751247895047946025481171240530554795755045554033142920383300,
  441812805745059390662683005816328885069288349556382218182227049600,
  121742868359001019701553105979045987301492843868729255180547921300,
  401318823028646404332234038870826376640830099682630003898566116300,
  507533800034627502899780199050752396197233471382849864596812492400,
  565588419098470015621290676422669560490385400917229257571463279100,
  311116756959876004200187053649203051326163843678484872390764759100,
  560437450674777226027376292156824531682217752033515462796820880900,
  231903041420734718605685572471844456094616203070635877069348650200,
  56551763697212441103064299337513482234257515041649146602297658470,
  100704536670661697751837643034059543087971914625214684027961705500,
  541932100396079451041407265811707918926638648080673897792126730500,
  340188747450506548325214004861649305539753666232203395416334320300,
  344064510905595372131124392229992066712153259981705041444088899700,
  592913491015510688338539817097853273964481369533842338508093416000,
  356419846848783718308135769198083513636560551368717243357084346900,
  195745617338618261409691594549660326943330876238510190086911313500,
  390407831512885453684373845645074101231369472338551544944123913700,
  327142602938357673371971534879978226923955691650535410040868695900,
  30821950335193736717559757949501808267584553410108670557952777890,
  404405246239589057930991630689030778939091023577862471353567827500,
  61632198648311450082415966264249902737272583598810428098856870920,
  361988335717796721913931674831184740104547608637209094188438475400,
  450083312053422319945551732104557807598881171680607852552272119600,
  38752825764399989888985753390194842718641420386656514113211838910,
  133229182089526599532785011170198044303896100370269130940192439800,
  433539366901353068758243953213543033274467938973214191352934810800,
  131187573007692576090597494074385368414861416498201426514398116700,
  229995941032001816989141653844910469656329775405994086700370558700,
  179223006658398074936836547332979298412927085001917184485553904900,
  93648632468282089157190032954700479751943875896831254363114173290,
  280830902788116981057733665119488848933149153449032892543448675600,
  129705622368014431792359868160149039725223136017780209199758554900,
  336219907322694610444358662371368197912674286579903680239780082600,
  346874268291256235706287018258111482725885938292842580761479042000,
  118666968313199793374624361588935776128077250703857386798152552600,
  55473442440771582371677081564546024121640432314029517761802631080,
  85987819859954501767443848344803667183517396209214055842728906290,
  118637336445243444482179339406269790737363337067435342209927258700,
  28845251882231793107727669478868378729537267959848794198330639630,
  140754249219854043551370060860451976598148569744251024199712063600,
  432381882512148648145269974540443812755788924173752276933978357300,
  48174349321667197235254969535419817894792518524749111559983491120,
  59148379409404684503048379724407789280221903521423325937096125130,
  124979950637808709733960418035594371523163975626996704626057544200,
  246977402828957370825920679501868986719490231963935820499162449400,
  362127178450828091986240696444445700363961274275496984971522133100,
  152772379692737976198908499054678452729966526455146350805836124400,
  54195717040316942621219019232521874301328491609679394421340081510,
  37886345310392451598589143178781917141294603667506568576552221790,
  68275628561057386810833247378136868543526900824742139036666581510,
  421248376883036375022662896375614997828582622554827652270372161500,
  382262260670525673242427910050905475126920494380931314682851649100,
  186961031220484715615763825631660308435115560762145283691693496600,
  485146356063036366469958416200395189815033512233489746386006125600,
  706982465633422679992387133179318300991633186952420545803574886400,
  89232438236467676595468319302797492372789658314930325937675856500,
  307408376770429438231853247929646269433184999967284932647496679700,
  59060497388687827832617258438244567903178577620230202962047928630,
  566312779220032090863923980429306717319438645329250521993159408800,
  322447242482779812852533440849242194721491617786739326189766760400,
  524916597070949923294467229757255322824174388049061590656745591800,
  77625779199168596071427073920209336635398233013336956206765369970,
  21969044628458149075107486475168475477602911472067354630107529910,
  90120683828407678475037164532902310964039296022707059118353566070,
  479441132149298726237036869539668411154461341121596769030457434100,
  336997559752132877229172415729942020959781372981027388597273028500,
  132435117140132721710547034517916726450583975993150692667429664600,
  215569026060261858028020314475146854893445769575683947368190779300,
  117156895629667410796737598792627107543059721301810459896723976300,
  50622548404521897973618318186722501489785243751566126474620853170,
  194349338821247975443709815189512193516710757600182959936184485400,
  499698304795925843042452365833719833588125045026857313166624877500,
  115007589313191593191852209200892033643616120779067742130261783100,
  496940068079673065598314682741517098245828008607286461018696488400,
  97650696429995567212300533664981922491618801583275756786955090130,
  103393238897882591974767113880797094173737314115741350939413278300,
  216076195297949532375116381272123836878015548703230020567309186600,
  166625334108711701474510137894183867597702414673806761885415436900,
  597289800276602994908150930473450798634057106676935799101983102700,
  77879996921402975485641251242531926090348736346839807219251004020,
  538264483389508219690217526519750559219150112883784221706387700700,
  329576486512078185812465884013535202184778271214164287687745167900,
  339291516855825365971341042815973993483067415123870994074768747900,
  46469745346120412440834401791896734499773890837573960015716136100,
  171476780541196783780281649071417305153838544785910955373259393800,
  548698290016185525172340011319448925349507894985914832262531432000,
  74545784149081779216363685489805156966358814453000789290484318380,
  23306252357814782041220350149752416236184066773346153433880999900,
  215085352272016869351813999096395403483442980113375814354788900000,
  359563115451866271234890747240924770398911761615427029697456044300,
  95893260002360114759029007342748639633607474974342165760088852890,
  303656155982664555930613484077287767429159351414223416322110629400,
  102595972677652221483518574470864098907881681141492838629502068600,
  652477182409762420967434323907757007038851253028340640804014777800,
  158133031377457516026513834021448651052063752881072957129465135600,
  47197880947071090676761047036508860549049877145018649326799019010,
  464486144420762125077881199980616703175385091439167176580979166000,
  219586961912483385083654971869333019735640167780827392622717434800,
  194324636583818370358338247841574176111716086308729258598809990600,
  31168581497714849439926823934438746314782267231769722393764324180,
  271310011046454121418556766966096627256926518273782225527122625800,
  219151586967808455995517867517820343786523175408553182382838190200,
  187638875122870651659254732556096953879235593100953673705120345700]⟩

end Tandem.QuadTable
