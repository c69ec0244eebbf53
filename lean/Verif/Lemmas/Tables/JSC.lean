import Verif.Lemmas.QuadCheck
import Verif.Model.Tables.JSC
/-! Generated by tools/gen_tables.py: moments of the rules in src/quadrules/JaskowiecSukumar2020.cpp. -/
namespace Tandem.QuadTable
set_option maxRecDepth 100000

def jS17N : List Pt3 := [
  ⟨nat_lit 1330260982330632895105318222210457382314194949085768241471797956000, nat_lit 4602551960004610435309259050149488081159891000411513719764748557000, nat_lit 3961269295220495436814924162314780946926596908896376170117854798000, nat_lit 28720594516112169369235241234858297069546536006149026281861532800⟩,
  ⟨nat_lit 2531361774984347563062697813473761230154374833153062461473510675000, nat_lit 416419131274457152464973225574705044884698947635339263443362618700, nat_lit 1481747112792672760711120899682923903735551419734830259268646988000, nat_lit 43587239929276423594385895603351738870233753450244422891982482120⟩,
  ⟨nat_lit 689836585640891394363022879346817115789531568565512751251887244600, nat_lit 6502128850269820694772418941736358815470068985728311192289518368000, nat_lit 67922713956749926365358011859177956532444528152813640293303398880, nat_lit 15941444329708752336043431721083502034459873213061062411597577490⟩,
  ⟨nat_lit 2940118785738613230973642162830130992269146896671883006042816721000, nat_lit 5480132903428303493560202277548532109715683671938694019300624685000, nat_lit 965900157383823695825393234102347430209310834694291804125580438800, nat_lit 56790801778240581907785695848901837493827748204247561063970989500⟩,
  ⟨nat_lit 1153024358653840057336669138252022254084793103241200875999020208000, nat_lit 2824071511788448340521226133037860009723715060288834863711448589000, nat_lit 5286556318300595108649753216414884831548859624762867002890392258000, nat_lit 64104605113547279536687344596979920484814173811041843670238421450⟩,
  ⟨nat_lit 1761675109361403984185364756363529339912376242459393205138131457000, nat_lit 7666300463482981210315182980062606888584549788003320187412888359000, nat_lit 427905082379201056990392965990367004644737167943328452083761448100, nat_lit 16266949821205427890694744706994079691396950302053894463865890250⟩,
  ⟨nat_lit 1386953383305265245846581407410399648932900945877036473257222548000, nat_lit 3252286923335633904843963714924942285063752017740738195555003600000, nat_lit 493114052310357450878771556024050928613371029212213674971874418200, nat_lit 51004812613316151333817827094880002170952134702435547139147223440⟩,
  ⟨nat_lit 2653353315625729913638934384144761267158744620136735868648669520000, nat_lit 748083014046086773129017934067610659503869400114272887241810483000, nat_lit 5969381491403378857907183731796544738247269340861251884542624898000, nat_lit 48098185957466658575346856654111001932913898557872879116003968380⟩,
  ⟨nat_lit 3256806199143691252641273879595629029866717576883564444011824075000, nat_lit 78747711811264663396432228186744730341955232679517243724050363000, nat_lit 1933293006143390970711089909537358128056980569272095242745041342000, nat_lit 24733967445915846896519368604838160897653611865585040872199021370⟩,
  ⟨nat_lit 1641334438057187698233106689476747844814785463629941371926409353000, nat_lit 3017745908760343765223570560589302373902464676060640211235235818000, nat_lit 5209343326608669608672215574779839402893066272587739164035878670000, nat_lit 32883379115493134818488542066103080249366395796588417292125736590⟩,
  ⟨nat_lit 144202065690257033948692050986133988707582937607554787044009966200, nat_lit 4097406491737708208253168896365215750006758865854115944711901985000, nat_lit 125110180975789646851685648230922443715176954691215415145127969600, nat_lit 11715921621510480681044338402620904952258973362810654288113224750⟩,
  ⟨nat_lit 5065381291665307440521478147691091436613692631868999693887374775000, nat_lit 731497990915554268096719379833983814699349839338191030928203896700, nat_lit 4058356367778804357070092044470843273110233838779183402229911066000, nat_lit 24513150552491407770462703666371126846429616263068378482329611270⟩,
  ⟨nat_lit 157150197414069816197582312834241460084112578475862324764595858800, nat_lit 1508977301232610286765157987204443736215342141352750701543495438000, nat_lit 2916390517417532951034476826696837342222528635174472363813542209000, nat_lit 39148681160173377005561050891910799689063696068080409879349541540⟩,
  ⟨nat_lit 1665192011354268681743500153036818553089953580855704566020326981000, nat_lit 443442783979180238601856851694364160540477363859952111315560604600, nat_lit 5280810345509243494087764734086393396273206464938570952757403320000, nat_lit 52089789654172118036864553001313682947148456857762036596509985580⟩,
  ⟨nat_lit 3722418619811923926384753658346848824999988963767529494688858914000, nat_lit 2462923968117393013684920374667601472136685337753204006106623837000, nat_lit 3319505980269829902640709296800724212901253681306011948979694108000, nat_lit 65385235092221275406069682525567246029824213934282819477029081080⟩,
  ⟨nat_lit 635961039692198001903350058959420355500044295215104780496186992900, nat_lit 3089300192382075118002228864989486910819603415915747797928219579000, nat_lit 152720214024954877395568562274720144153703111470963865034219298900, nat_lit 26428060429727915001473483612700299287610378064469526149633567920⟩,
  ⟨nat_lit 713754973188701855844375007825781319534203115411552791317998970000, nat_lit 48163336303424500490278369603255409406700679189522623219957531750, nat_lit 8472520235057565925615130830891663457972165526192274897031616170000, nat_lit 7139292648896286555361233965670459070017582691113115860407260489⟩,
  ⟨nat_lit 4368555029869961947502830310783375749648518334295313467244408442000, nat_lit 4744899899768428174560061299396254131041043500348366415183175259000, nat_lit 97607077393295908543962911001556054134899289552783221356950978040, nat_lit 21914634945796769492422033089976915195650478289743007286920420130⟩,
  ⟨nat_lit 737935318555916131958168909962186333433861854455213214027555382000, nat_lit 5902695315530109319231097269967617382904366069294879149001699930000, nat_lit 2734027344143507685712507625105343126824230347360758485860345174000, nat_lit 50017333985293941951903551858859476006570675702521645001477422250⟩,
  ⟨nat_lit 2580516832211307822323485901144848874421648518182734486303346819000, nat_lit 4729139897357830651271419142392997092997338031634631239463103977000, nat_lit 2629499319632637282919363778507371482040109747695514000134602937000, nat_lit 24760041072923215165973268129181068320018659199247100807834420650⟩,
  ⟨nat_lit 451228405005503677381249078538361444294363894966062128621857757900, nat_lit 2667592758640409575797187312941880767384360668213850974864787760000, nat_lit 1615793080356838881357937870604612722034678710009707233836691689000, nat_lit 31791690157292081785075716697115804274092371197228403411643186610⟩,
  ⟨nat_lit 546356784332576088774892120822219524119511785372423851462500192300, nat_lit 55130082295218980143206874830732011999456549611937463606024578570, nat_lit 133885888514307968165543124110555212566343141610413626094087445400, nat_lit 2912283584942433266546152668437637251804341857565560612982838462⟩,
  ⟨nat_lit 5548474436195232376954049324477410814357137887348615447429584505000, nat_lit 1919669784300894307524845479478811449425144882822115839976243955000, nat_lit 2468181126417058980134449137660007045572912593116849919822837453000, nat_lit 18882466989496679639194698222320531560635018613946480020753694760⟩,
  ⟨nat_lit 2540553672412708085854948630737042072772525436712976822500752235000, nat_lit 753493037593076691956604348602298806638201206985083083641285089600, nat_lit 3995043328500744683216278177489806435878348224559080132737110806000, nat_lit 75521862312099293947234698864698340051705028201091907646625466460⟩,
  ⟨nat_lit 87326592932938935888624043295044151504776312444589367330399659530, nat_lit 2476579492352664436735694978952683255164981314769355085473473069000, nat_lit 1661801680576712705950825022894590279559033825360899307771866925000, nat_lit 21410904736047381950375884627792058277708080616105050698503347970⟩,
  ⟨nat_lit 126251439233273424056969385398975037202297763400247628550762968600, nat_lit 3123416140582085287235632071936562713013077415296451098635463387000, nat_lit 669245011014161814739566946287792419766115285281102160995926532900, nat_lit 24017991283119874858302740602914920758897666661700803328315849570⟩,
  ⟨nat_lit 76603253322495572908198480190023904819296365297397475023188178800, nat_lit 4950916652338424681722058944406828952582495302823402685044942449000, nat_lit 540927743840443453395074216021081969421988713104736023807747646600, nat_lit 15292213513146961151291330115328169113700147582464238712723893830⟩,
  ⟨nat_lit 124473512804083587832557250122905268793799712409624382936151380800, nat_lit 4530114613188880906940988489949697949509217430357988740479003954000, nat_lit 4822768859713687841181791939986474312744470974544157715546647931000, nat_lit 20795639323706552290311713450140797593149512632519417901615421480⟩,
  ⟨nat_lit 113702745092842148110442532527260457312445821949785179729754762400, nat_lit 1037667627424630807919899368651999708348280541526810431819878181000, nat_lit 146501813141071590783692513838054153488372202103256611482515824500, nat_lit 7227649779490461089811719270067283054725277312146209207121832594⟩,
  ⟨nat_lit 4067692042452855626132478599075094165073795965806362378386276778000, nat_lit 1812613365746250030752105489817783976662688055209245869293653481000, nat_lit 4052736813843362593776321081230903646449352236569745527752267536000, nat_lit 25164553382490366880284481420870796884382997452764123873401297980⟩,
  ⟨nat_lit 764892989079868252727826119485728163461100356999661831533591380800, nat_lit 5984796835537891105575799395680245783880784799141683959653427941000, nat_lit 586754984356772600340165779575620205584122147976054361655998885100, nat_lit 53443201533623857790404111226197156428973644536666622552730226640⟩,
  ⟨nat_lit 111243344595580989396006076031372698828088866708535120962467818900, nat_lit 109813488036495433668840459663498012729235019747027625930415577900, nat_lit 9056540775378761335249728619230556919958575460597307615574146394000, nat_lit 4251809428741779335242113468734782948325720109156807915069740103⟩,
  ⟨nat_lit 433687256357704808450584891005011826889943093204544540649392585000, nat_lit 5883046043736223946680595616422806943499294925649330737185895762000, nat_lit 3556730385567371536303782611735037155272840406417618282880073378000, nat_lit 20102984336747698753277434398003794820640365171114619742017490270⟩,
  ⟨nat_lit 7698753506752975025144361393972999548862545992901979672609218047000, nat_lit 2093950273501985396878300367724105587136352142491140781745589515000, nat_lit 15709600390932914752816264739515602595463959483288603724278373440, nat_lit 5415527617765123063559327482765353821477521004684804789831932319⟩,
  ⟨nat_lit 8982220758614531739140263757009209355736040230420002101058297415000, nat_lit 86191877744700376749991171385212814139678923708760629379684014110, nat_lit 807659611329033273847016509927017814156846513097265448609461541200, nat_lit 4139150430582410984670132324383609430164803420114494489277857951⟩,
  ⟨nat_lit 125960874484029585972183748506171090987430641327442423007922761400, nat_lit 3140845899430901679358437643078822134155450496108878460398904248000, nat_lit 4140091276987788580231900683807845558915130681166767212383172376000, nat_lit 38120144819580785315000804998829162980505789947143178369626128660⟩,
  ⟨nat_lit 2339131002634372441265717693507374142821291646842966909815940675000, nat_lit 7522072056485084703772301126746321544229387507576003839806669438000, nat_lit 31174267727007519926060332145755794637100021437245972970295746960, nat_lit 4313020122432883124803566748055032030848648034616852307927026561⟩,
  ⟨nat_lit 2967178127759774201755716138642575749199548308770587280217822972000, nat_lit 4187969241150985019829108910207259850637320937158859441218390215000, nat_lit 2288149976852295852568626506683148691230692085764406641935186119000, nat_lit 81043787443144460646761565573857073158681121552435504868522370920⟩,
  ⟨nat_lit 160046731278830356320418353936493313440955894084655440120249252600, nat_lit 114345745169336327548125199959295041881628965208400487882478091500, nat_lit 3114525009596651435152629787682088419632576295136374415968192552000, nat_lit 11643164183341891081533177489757090554261634947795622981138415710⟩,
  ⟨nat_lit 1720331498121377343557906547760369983796929323901028308263710713000, nat_lit 6885409489511205537788982402785889091296041208414765845375382057000, nat_lit 654785694701784759909595778539484673831672727773960353406704349100, nat_lit 49444985944613658862256413159929065232800956189702031164537484950⟩,
  ⟨nat_lit 552233784307998519783913394033218001589677926780387960992097982200, nat_lit 5010346725940898116147860027237239506015772756981820353139669424000, nat_lit 2900429551027771515147541616896805779316635507949563415680206520000, nat_lit 56168236087147301211716917611944471635920824320904686503708633470⟩,
  ⟨nat_lit 4789544284300078718153306540498506707872321861766208687073726160000, nat_lit 1542377395025469852896910171477125925769736976406761318134326994000, nat_lit 1776157824555033803104862937314395092121695860286510585875320192000, nat_lit 84272342344650462808477082307022857152269859075042272502926990660⟩,
  ⟨nat_lit 88741007973513896189874877193601038916535653935085820749868448330, nat_lit 2803808475372111056269758565537003089271642677470160492411846451000, nat_lit 2934409001346021414963932514802819722222916134089062966029443154000, nat_lit 29456821506595106162829155585069140902786725663767990610848305750⟩,
  ⟨nat_lit 4809568873407216427146026985623695398322986259880207861131751039000, nat_lit 4697593820880605638600365793063837052259155632915403807814404641000, nat_lit 468558569607952936610466968236401752159047510159371665855401147400, nat_lit 9071967426770912008288465656431928887772365628576228548447804629⟩,
  ⟨nat_lit 1366753800894811105824873483384207295769505277129825362892440677000, nat_lit 605789283688050296099430581150519740575169604412560306025277121900, nat_lit 7409740202864489599873248347459842567584287306187949412556774710000, nat_lit 33038242722932988881610414160267698456891347216827418365891985840⟩,
  ⟨nat_lit 2544361488724906268684898917793945942320102717677347908170092086000, nat_lit 1757961847726547074888129792268972404360928432857307580422699854000, nat_lit 5542511750234477826179760553951553774325493215368090020467356550000, nat_lit 40602461402981714565584369984105872201753420946929256208922087170⟩,
  ⟨nat_lit 873834414089825817459809962376820036730597285331723031579753594200, nat_lit 1614337240454174410911532572297375397679249317831732847989886982000, nat_lit 2748328581314383123122811618969829566227623624179679853718217369000, nat_lit 83619750434793514118892595081462241634698471316603768097939801350⟩,
  ⟨nat_lit 131981630759047840915163551575775264730085246927489443922631647700, nat_lit 557863787325220131939254008908208399427633366875719165221021567800, nat_lit 7441161596858732647483706500120586381576949921518759117356612147000, nat_lit 15628451350433460298742995959595625772640651050900303115991811820⟩,
  ⟨nat_lit 174426457196149817184854168496737858545124465892622382615103496900, nat_lit 89216745718146480535587357385023829274276559096722630727126722930, nat_lit 732256600118375807547026795468747531318372822789299985514901747200, nat_lit 5243175432724898305792189660987681990104109753036639900209869770⟩,
  ⟨nat_lit 158983310764388569989292580891834999859183073474515378095165133900, nat_lit 167114573577774201209562927173480228479530370170347907792299119900, nat_lit 9531116509462822149733476955453273208660734376039551062334239948000, nat_lit 3698152932255108029851763466849585623247632277448769988847284249⟩,
  ⟨nat_lit 2825065613537211134279450394041200600820754442447429812260099287000, nat_lit 4210152651420652204172646463469779441924739296229548218744600438000, nat_lit 1534016594687249992881294065338318347359830662798009099535145282000, nat_lit 103528691605817958601029150179323108821280015764887362979506733100⟩,
  ⟨nat_lit 5605119616624778121843202733552746209626048258983642125488765376000, nat_lit 3198345688175852051566047030652917062856917912898724724789338257000, nat_lit 1076487224152758401937964106991620239078671451216539413936310293000, nat_lit 28883375239211410789021695280156923556149886144540548946522229690⟩,
  ⟨nat_lit 560078371826260524522964964776191870824479140557571943505540645300, nat_lit 537235443304292609954295906806191068874613112788942151343987874000, nat_lit 92358486529341665438657235580289698652132770815118435866831751530, nat_lit 7476643371215642522695901790577909405221497012681847093200004660⟩,
  ⟨nat_lit 295802322154822523638310013804919102475074635708819259414413020300, nat_lit 1984735215016000207392114649104454599026170047019704382990351455000, nat_lit 7700797281851625973177640748279635578768053481756148651775839552000, nat_lit 7041526088762627148651127981234192116983752715191994918263440533⟩,
  ⟨nat_lit 1510844744910682418796822926704313150164864636280727832647689661000, nat_lit 1320298799379829801015996301248829668748841987488772347545799716000, nat_lit 5394679384031418279628259125980642481137351940899427415562675221000, nat_lit 82442215755068666876594566744653741547987240588378273526046769780⟩,
  ⟨nat_lit 137462990806347971828541074763360277799549579344164983542885015900, nat_lit 7399902413993615181663828115185665635223163673841628217783476913000, nat_lit 822150577759038246173157271135603511451656018357112364602496684700, nat_lit 24296707312750561139782726511642064981924480849698085647470886220⟩,
  ⟨nat_lit 2510295744357366737769381074015193632912208139646159120244294445000, nat_lit 2024094425093208023186291996074851501840058021130045640419117849000, nat_lit 4709905527203770572935625782476597219086557574916489524510311710000, nat_lit 78870630655112532318680276557241737128635639196154470801107343260⟩,
  ⟨nat_lit 3203813403745661270639442730984769807896018987985080707739561659000, nat_lit 6227979023503119300014054973868539329968831577509663218561184761000, nat_lit 394104781628974005957241801234158504375104398561432737734386695200, nat_lit 23289548607209716653513146830509358560029948198260629444016641290⟩,
  ⟨nat_lit 4297271702985190107145813821293867311059243752840339521909316423000, nat_lit 758210599454445609491980671760580789600868022472695332726655184000, nat_lit 85218542920995690280925694532146558971385880076967991119005481090, nat_lit 19656674231972456949085725451851432343665727167992393043095078620⟩,
  ⟨nat_lit 1475093519338830896810638951145499802528119109103815751620613748000, nat_lit 1534409879843826979406292329273832503419298420833228024355256226000, nat_lit 6291585565528485804150151743151760150431155936694265473028508453000, nat_lit 62847447905779456209010932050976381808770535281869271238134730000⟩,
  ⟨nat_lit 758727536264552509741126224273713992775354643412144630692594807000, nat_lit 191039406356873562872758739054823297691194537218133072837809221300, nat_lit 7312529396628587114054599195223551310190453541005168227944032765000, nat_lit 25894055328467236928278947215728638656408324326887393410784970050⟩,
  ⟨nat_lit 5194269241321140640777498704405799103050669813109444737899037329000, nat_lit 1154013487262275897501839049973949016901183656740929641481715467000, nat_lit 723140246524769885984901271307462574707762074309910260264579236700, nat_lit 58488274506541020261220644500381211844632311812372471872496579680⟩,
  ⟨nat_lit 2662646965065005936460140728967781699692160747123098645457899223000, nat_lit 3720694418092919820032593862294460914741801632484920829455420492000, nat_lit 114676379927515645905277918099114567874599480568763019926939314800, nat_lit 31579517701628657855322112428197668502509197716396437014716193080⟩,
  ⟨nat_lit 1754717057299223348474632333079663396371482639319142460771599003000, nat_lit 450730470739435638814527381411993426558124618394029355136352558000, nat_lit 6324265241583830299690545723012451144542336004560642033900903909000, nat_lit 45922902052971814294847738705261798146968083323300534925561660270⟩,
  ⟨nat_lit 4132446475763806511901149736624087361192552031716045187010410074000, nat_lit 5678388336789401556962156709142577538040306436859111036894585039000, nat_lit 42736148377425569859513333060732377633035630598140461369988583560, nat_lit 6455967653433213254672966793619587652286726534813153938556097727⟩,
  ⟨nat_lit 5854232844958041063353642863087533480402788741510512263754205069000, nat_lit 3866640197550218908601521515029525769384600088188908030042473499000, nat_lit 104594475350682138245450469149272298187275181755203024852906978300, nat_lit 11625500557790886891265251078353664218672111728489609513024025670⟩,
  ⟨nat_lit 2041882921095283148261817589830207503352984751006998433627506725000, nat_lit 3464304997473041072533819483761330482606312115208742418908600724000, nat_lit 3886664696568924610765624669187144479910273559354597982356324414000, nat_lit 72095263559938588775088737985021369791654764679619095171145152890⟩,
  ⟨nat_lit 503816156804566550365949191638436074348627364519166034428057398500, nat_lit 712335441347210995685861065377819633343872301911740196610927327700, nat_lit 1380763482332838982729496766371327492550964793538032204940675732000, nat_lit 33246704791937720230765014893971762482310148710728948765009218990⟩,
  ⟨nat_lit 3691310880443485225732765643893939683933415599978760525400167566000, nat_lit 1282193894182515655599020744489506375673877615826488204156903782000, nat_lit 596622854292032013435707125432405013213127844533405159463716305000, nat_lit 57712412895681239537763159571256841432107471557186662653873468910⟩,
  ⟨nat_lit 2867176476000828450944079454536085444375120822070309033434122426000, nat_lit 1732432017422747518564052855281333509269230595094629750201334838000, nat_lit 2723908200634573473995324757139186368666382642219926837800182763000, nat_lit 110946612071048053992040028682332217710569624609875561053280301300⟩,
  ⟨nat_lit 4993845667497946776593998852697297863691658346809384671509612720000, nat_lit 434941195862325950294375183754770557283659637312384850466278271100, nat_lit 501005452270640429814259434869455694923835164106472090871645258800, nat_lit 40365173108358691167441631068273579712166876232510231868995209130⟩,
  ⟨nat_lit 8614907023096111903960070815317127495036433864627724218122243367000, nat_lit 749593803716953327803030307581064082312808784305710900176076176700, nat_lit 113572737811539134497888418593443085840517139962510098867675713600, nat_lit 10054454915912228613297930206139470995070817830873955008839899310⟩,
  ⟨nat_lit 1816641879003950868660684267406458098949638195461843597860225063000, nat_lit 5568810163907723673247433956846249660351149600955439741012005094000, nat_lit 775897114911233572676328128959050483406016514823345830062372214700, nat_lit 79715922988651926262530244511307800407286293362379044002489063370⟩,
  ⟨nat_lit 146729474297881946028234595483258842040437150658858966522463849200, nat_lit 7194592994613709770935532596692544759456815682114437388982096563000, nat_lit 1852123914471918674769652774072125051210625575698245243504855131000, nat_lit 24117449874720764163761753068277290466549044494445065959860381440⟩,
  ⟨nat_lit 6113232170477968031073632556805169960152075995425809577297218130000, nat_lit 57147327520086852847395397538642956464719137375512110589747627990, nat_lit 205078675688555089745066648783395031248349603429980793246915462200, nat_lit 8061905120713723621956943454330814274829335405512454280668155774⟩,
  ⟨nat_lit 7715699841931909666041309287330641018821466752044415766521246737000, nat_lit 1596853266554822333956923164909650825548333462750077565666015069000, nat_lit 498464483263251762477666888067769127779684110706832343777643862600, nat_lit 18858523483922030904800424081856875819189023206132935797881212180⟩,
  ⟨nat_lit 101051495473368059526180430842436026291294712387939555541295266800, nat_lit 2439726083105565108327655239322458782203877467385402513012132668000, nat_lit 123496392085193603460070022640397070875664157166193538086443817100, nat_lit 8349635208065051361437610819222828863988696260565344734239949284⟩,
  ⟨nat_lit 1476973790109980116274500059165173470433572279583642684427510879000, nat_lit 25789222099192774118370104667171428513895276963841010672109712400, nat_lit 5987132544720075405501352829489438335560821895843398160983254564000, nat_lit 14658200266200689007317619341158368847633329859042057111467445310⟩,
  ⟨nat_lit 1810559666448960658527937936479375097857357828991480251064719451000, nat_lit 109471849609732905776520216274941150932688585286359374710912375100, nat_lit 7435320236404720105204867239209728272173366215479015383269958688000, nat_lit 13788225011717399974578134458147734625922899605510810002511108720⟩,
  ⟨nat_lit 6435860034947708904623298458788990023611965109780904533256304158000, nat_lit 134671983177837459109516018053759491162677202953808849295193154300, nat_lit 3275205632518979618428443756588667869098740072191410786662163203000, nat_lit 12575783737669609135617720202870454550051113465424521437813913420⟩,
  ⟨nat_lit 2907021674286945474703265752668861870680383995953047139408960475000, nat_lit 130572978244269828244224328461022021849639490183047975165181346600, nat_lit 5443817666849233231914530500946174847482523780642658706954251450000, nat_lit 34995231566820449870950470191314911173331552066992091854274914140⟩,
  ⟨nat_lit 595722758521077971280195549654475662274763057797164759187104581600, nat_lit 418991508495840804943401981019082176358188438303206149361815967400, nat_lit 8311971246425040077691705262687713410489128628527134797492246787000, nat_lit 18755206328623470312403251401555215741858070078975319870814876550⟩,
  ⟨nat_lit 7351658108486308154731451469054138434743621643204510527550617050000, nat_lit 1615378425398469643014974707210007126738304579834840467032752200000, nat_lit 187596177575178172004514085644646270090188606855969623385240865700, nat_lit 28399814666236016547056256630661238663096886228236083758600865780⟩,
  ⟨nat_lit 587669141903162631203362588054787157948858068705238629133777885700, nat_lit 1664718235967265396803053536148874546527192321968777863185824012000, nat_lit 114064082840399244324522852879960695262359762093901512414365780100, nat_lit 16761767290921512580392421809607759585186503804278760450704043060⟩,
  ⟨nat_lit 786256372108674025640188056936557025936500625219904078905523364400, nat_lit 130517349510761772738155138261018800931251621268170057418707272400, nat_lit 8939272918626353601415640547331101386869929301689257150112858835000, nat_lit 6260197826906827958017156959536783843390412476828057931567377148⟩,
  ⟨nat_lit 2053425885783679738497785841123750187545742951978721668633613635000, nat_lit 6039555236239804388186404266205492094242273291896811296346732039000, nat_lit 146221526641065708575228613295717013350598930016385287032379981800, nat_lit 29037248059338851229277527877919793119101821206328481739535129760⟩,
  ⟨nat_lit 16399775379152846816842436877616038975593343277745274029127391350, nat_lit 3043266924786774830572007239336055634891458249112996502136006914000, nat_lit 5779480083049168795912673307427499862861421662236450138732322371000, nat_lit 12030607310359112690997511552648478253488504908153717565303857210⟩,
  ⟨nat_lit 390356680190869393149567264225157421042839486933082896604879515400, nat_lit 7865352885017725585863756528084667909930618338673149870645093908000, nat_lit 194079991831432595129363091631829311563814731340825012385195173000, nat_lit 15872161728924784205132645569749853164925245003343569335736702100⟩,
  ⟨nat_lit 4671368528378846974691504840063124316945516393989082800448438210000, nat_lit 3298288211323092789127197969150254237962133185588576297817227764000, nat_lit 129623422365320954925673283218100330306517937161226216676546809300, nat_lit 27257241961890087516823076965703073373151733278355673211748010490⟩,
  ⟨nat_lit 157383916865475033196286013318075854856513811147694217400316612400, nat_lit 8362176023595805984620372968099687461039197959044807847577105607000, nat_lit 854757406240771493237375171849311722833462353625798977515122841800, nat_lit 13701605643936402978256586300093448643489925403072747145007329990⟩,
  ⟨nat_lit 735081645264671445132308490250603386220518569678224584879980150400, nat_lit 586814183616102643845876823468456711538533241064023251587107462400, nat_lit 5816839292148302172129819600658391062616089954025589607662257441000, nat_lit 49892992258385329049864705862689334196253473310248359573982823640⟩,
  ⟨nat_lit 2996261187752004127630940515043200828715715355004864934453722050000, nat_lit 2034758709664014324654336199329106195873685169344299253661623155000, nat_lit 94848565195112312407648070654154925457265334379125012927472799370, nat_lit 29573922319937267895364362982815855932770591398917796214279526090⟩,
  ⟨nat_lit 148914104317421995951044532103133209668978862622891884515590365100, nat_lit 5841350621471224233785589035484318488904939176284704495381032646000, nat_lit 34775938624889669432992854307726537900237751262249325169853749430, nat_lit 6169120837079447128680051588111607416990778461323452357024130635⟩,
  ⟨nat_lit 8516251779979607867815366445850277434013831606885267486891970419000, nat_lit 601761598427085918081962136526308799033335519053277898684901019200, nat_lit 838166413391184628258995249634075196355885523775809419427052866400, nat_lit 7180881096267455603705704496097952705674027872867710085305671676⟩,
  ⟨nat_lit 67802028144860342256386670397980230207808819001783537802508772190, nat_lit 5229167338499293893400096492543163705165729534577355976389479734000, nat_lit 4621619108856923852353141026524929263012510158825548519407137908000, nat_lit 4944559334522292919635022389595940487817807060326129446998917636⟩,
  ⟨nat_lit 726216803922912514579366409072249746432989474760139330336490354300, nat_lit 129106135157447449557849802338853428205124608211216895260167596100, nat_lit 1850597451606676710714298095772392885902318863078958169521755677000, nat_lit 20758390357413602942230877670349785184217593211349650850682545460⟩,
  ⟨nat_lit 1262244044595567493084014052366600653299007037573488012257231772000, nat_lit 723676026557525867083609425182836372480063752615819382351417541700, nat_lit 3960654383226956978694882443779458012751506937524893115291585666000, nat_lit 69524975435454025065662825063146973471408711989099944751090157840⟩,
  ⟨nat_lit 5342756305467679708034549735235601721667284176122109797832445867000, nat_lit 1461650382050491378611815632193621763494311932848852320588657430000, nat_lit 2783329910167753869464052914464966091477171204522643117149468956000, nat_lit 54050678452298800220228062380613259169344231948224993340007515200⟩,
  ⟨nat_lit 376783439292061766721309524232001655791493571989126064785909652600, nat_lit 7477977619219280539094724455259981023547718394072541664624049670000, nat_lit 2007049531053209209110809310713288486142539324387231464002514956000, nat_lit 16457575891097019450916865434955621435775088348235309075068255700⟩,
  ⟨nat_lit 787138184848962965439846827119488911883723338464398115624703639300, nat_lit 7020298080372936050436269432871274300496178742300403965418304597000, nat_lit 769908333163692692303903388148174948119360684242648504918045567700, nat_lit 41302769158221788384151376115002056053665507311164231159921110880⟩,
  ⟨nat_lit 93211819737309065562092210577108660062224722118585048400508086500, nat_lit 4072191491975451420374050740978267987109976866902741844586746997000, nat_lit 1505043143131336508445288721182732587226281510824947655806683482000, nat_lit 27784175738680225548025001628116061627637177247693293870747960700⟩,
  ⟨nat_lit 9024327047582083464083357971784215039219040645335289087792721400000, nat_lit 72109877059000865151020663354296833884371916156590048512692076970, nat_lit 98731498524285240140623808226878533487060538146415838776362099470, nat_lit 3296575581648018423637722845946762108024395100895331724015885081⟩,
  ⟨nat_lit 97478429305677179038366178449976256726201287391386482548190145760, nat_lit 4660027174800121563239701870107841490147699304816826070494472853000, nat_lit 3676487267017438115425233778814214092755561916458596941115798234000, nat_lit 26621321271899709072435020902266271163298939700439114956927903910⟩,
  ⟨nat_lit 2079994653106960267502820412658222239637992854819640767624547945000, nat_lit 6025014562704130710232753930382658637650316235195603000502106536000, nat_lit 1635592268795771283807780944865891308520339086364339727130402653000, nat_lit 37779653709417212775062741640057072313696989413804141990293870490⟩,
  ⟨nat_lit 800880696720761034414299992290102201562937100104473368476556932000, nat_lit 729971615413528500876214042600404791828561424116965604725926409300, nat_lit 8360604474049584728416314630838295412270143716813375181904810849000, nat_lit 13694521233025545743522476483489966730210843663793028276259948880⟩,
  ⟨nat_lit 4400357066664315760152647912771583678231026704587597387346121449000, nat_lit 122416527923911105464479565352198964117112242330501234544649092800, nat_lit 152835175529280871425397635826431916529820254415180256500699498000, nat_lit 12746968043032983174989357648518245766933134564906083735599234740⟩,
  ⟨nat_lit 1627110283082953118868084448884678186688644015050280404131748480000, nat_lit 4122845526890843348887609754421341486014504752735599275884150014000, nat_lit 2834015471932764791600344647092575435517544764938375527240821164000, nat_lit 95459555196741715100339073409199086544001934381530470902260640430⟩,
  ⟨nat_lit 117117396037575189620729314960906440884777725925079990501015150600, nat_lit 1539754845280258060704036317487157096862733590708486704971389200000, nat_lit 7148165890188617712486877705773653248400510544231003675999460411000, nat_lit 22634723179432107730012359452430432637495528725226226980041510440⟩,
  ⟨nat_lit 3371780504375378137933819724504347402275734993696937846612419419000, nat_lit 101929844007749043599951194336197851659877295021363698931227738400, nat_lit 809847566131263902326775651257142685211267007833793035304301696700, nat_lit 19260594326695932159175997047979846356505688210241807830286461880⟩,
  ⟨nat_lit 1360634532827981103827012355398341937859725255340814112961579826000, nat_lit 4686539334293068126156102951913092873418775810735279891155263183000, nat_lit 1705578011514215365807111495456931819211199746848700473985413866000, nat_lit 87240931640954224233598258117222438687276498535557390702180962060⟩,
  ⟨nat_lit 144123818286663610622678081395303918621990518551206720753409630400, nat_lit 5780077346948183842058728945555842646909671786131166910116700505000, nat_lit 1177795042144615929206774042849318527922999274577929599391418350000, nat_lit 31673058509704731131231121038198320633970455980164192616049565280⟩,
  ⟨nat_lit 7191725302349458866652182096392361987588466525331788053425833623000, nat_lit 1294975433036046608340967776998095867228143914577425080872959357000, nat_lit 893522030954938146297766011808531415415393843826635621840125189100, nat_lit 34881517995049684200744243506603573837100794630176448029204988430⟩,
  ⟨nat_lit 891594649779055118470093586171563717362237495111710584076492506800, nat_lit 93795596682012364335177034137959457236201778694062845548986326130, nat_lit 3237280518383410420556427806209045856696274556700366885920735790000, nat_lit 22010866786250374535128530239872204743718610780693743094670867710⟩,
  ⟨nat_lit 2858243186641413057384774641077945065081054582167129679061385627000, nat_lit 3186568717003583672211300753710290102778941240537820819467442385000, nat_lit 3833792998543487286885357591044112655357619743739312775437090434000, nat_lit 37982074305797166121162069424124902381640479563986223062710728570⟩,
  ⟨nat_lit 3293164391171081313327726780179260572973148629404000570624379645000, nat_lit 4711752364604548587965160157249648789556048041236215816516755624000, nat_lit 50441057803420054969363387336577882564706694365744743121396939320, nat_lit 21191465063347626678584133163941942259164208819978601039163618560⟩,
  ⟨nat_lit 2496151427807797368500851689733606050523931275829104472507268606000, nat_lit 6407891095599759510308277713446666888153947432612389831793380933000, nat_lit 1057689813787515230346659425396103826285530446196157185252184071000, nat_lit 10740941667260951437852148932205742630286356998604934853238216410⟩,
  ⟨nat_lit 8825721264626552829849942612319737458653137579594218372374898124000, nat_lit 932720847062077010379448017938139216134648363460471206693327316900, nat_lit 159760805962890989972806625367105866636386352358703655063088641100, nat_lit 5392508623820391874701217745279933693847716520819639570181559333⟩,
  ⟨nat_lit 2762199941352209751782518317469465428105031577977790217734716621000, nat_lit 920266439015102600582168699489424088641305028672064391573214751000, nat_lit 4965332031369959435898819381781928622868605543480205430347341748000, nat_lit 61671258231857035277002114749772301568502255490524393066265842190⟩,
  ⟨nat_lit 5361648656618452717492113241890301818666213984506213163869889392000, nat_lit 336917556945172912391763982928037504193420751015864109567951907500, nat_lit 2649029126103457000067898492843218108295842369031371356052452171000, nat_lit 50686589802402798129043801233155488046155285320987843010860277390⟩,
  ⟨nat_lit 79521131575011665158718039516983192515274682771191764028567942600, nat_lit 7728290517630889025559223272057582084742807585888632290703934119000, nat_lit 92494793688479829699319708573415522132359406870885295692341755570, nat_lit 4755653439907559968880554952958607868658206253298143452595326638⟩,
  ⟨nat_lit 6001225528500763734343528221403652630638502939111771129152369011000, nat_lit 352630816159435078666223152348528796536011890058247251859028311000, nat_lit 15638726991729030468075617960192379813929198608236024928450916560, nat_lit 6818289836931988690423783781124331901391417592161612829182872224⟩,
  ⟨nat_lit 874139705056423155221661861400028296781498052733011901446588845600, nat_lit 8871704806677671483622065625748662219856635001001376364942457910000, nat_lit 146743015028233068692184811934884687353582940417081989585640045900, nat_lit 6506929475592716854504331020045563295684743849641095441579088190⟩,
  ⟨nat_lit 3291619329555125497909847008483168054437225634177303358915734998000, nat_lit 498504192504846815234408990171047144093544047765131094324059792300, nat_lit 566361897821681925421467583766126215809662231406259357670258408800, nat_lit 37922274928544782288724602320975521560607671683647891723007022180⟩,
  ⟨nat_lit 21568837533727780395983271163626252620963880040118009641721123120, nat_lit 1877816284745916358918148239131318567547106400638031178760604318000, nat_lit 7769333634552825838268500133126463261013255768778654002520015602000, nat_lit 6871994125363188447800669669730479218325554894402166447584219226⟩,
  ⟨nat_lit 895067865143045490464542967896080950279211781615750384143675444900, nat_lit 1222477829332258511982202457698451208530378772913699130634224593000, nat_lit 580161560845761901034787329097299675349709314558366499467555971600, nat_lit 38010075557279994581484834610604746039338546449101445137888562110⟩,
  ⟨nat_lit 767171890524320352454032164983633173105120909980034376491371960100, nat_lit 2762956063859946381165801101273661983348934015014403815359554244000, nat_lit 6291554180625582908112517874215684571627068195409646004672377841000, nat_lit 24510917523978854471311891974251124896484398051530950084826356670⟩,
  ⟨nat_lit 88962743675311520736436509320031907212444354246328812533172520110, nat_lit 6027009484415642703205542289422311081414064335679218798234805860000, nat_lit 2095621953508518769082694364504460617557165380523792577930895604000, nat_lit 23631334046511038654187251582974473408134722010857970174298256820⟩,
  ⟨nat_lit 5115425057892981744741408871549058052845850865259665253764512735000, nat_lit 110544038203771185235341541958881546617185788491344096118885653700, nat_lit 1885267387363210350551392431230257149879709939767215895763986139000, nat_lit 30870154669435408398857943254078756532348107642126552264346699940⟩,
  ⟨nat_lit 7105344391369110186050317093173245637852292501490753742247777569000, nat_lit 815904814366955592218250674333493366601975139184449255628371266400, nat_lit 583586910416601238767805478396692746815368407546044554777179818100, nat_lit 47415823713092646522715676699808024657105786257597559374620170540⟩,
  ⟨nat_lit 2698594522424118819869931710813944701887610038139455952501984055000, nat_lit 1047360427536820138253245529090561756031683672903804703963008487000, nat_lit 164744022810457816307202788274213907051261363993232247439777220400, nat_lit 28751683794139334053414212019470144884312750791682264805339431610⟩,
  ⟨nat_lit 7193103735316320096230036244133980177303010064868601083107377829000, nat_lit 777817260541490703887647431312483891001319243442983560911045102300, nat_lit 1785814593611891780686463853442808709329998137160871710478007277000, nat_lit 32287652559227977236816053938795986576201555327115556472487596550⟩,
  ⟨nat_lit 4848392483149078106384130695949483340592839683816417350905210132000, nat_lit 22670048531581713434989557218738758481237108609417359537448328750, nat_lit 904988619667606836544143633718863122355890459606023642226764726100, nat_lit 12692317545437401249458652302188015583684497639479956811192469910⟩,
  ⟨nat_lit 1653686955409382920271820366411783846225559387459200069726540161000, nat_lit 68439670070201165529771844161609281498556526263756935834194354700, nat_lit 7002238190287926876116276392080421462035930523872490547422181249000, nat_lit 9552949760276802202668293920922824963188541421701368605883572290⟩,
  ⟨nat_lit 498514522258826335834192841214122423692996697231623345753303024900, nat_lit 4990765450450780789673864038346020440652026055267909553190079226000, nat_lit 391662919384147211370561239576515718714613740184318527511281462700, nat_lit 27734518851665693166758311992661140587740558029306031547386032580⟩,
  ⟨nat_lit 6115274053878625234498256856339866210258085368151793463818330149000, nat_lit 2992009149611054431943421430196556888535689779279261583555571562000, nat_lit 45948025190059191539736857156093282620087586235931273913549134830, nat_lit 14468934781970515584171395912415592553683995678263643834270331680⟩,
  ⟨nat_lit 4277713601849925551551189276175848118892407638797664215583526953000, nat_lit 3328294418041088960466231266919881963853315542997901613132503391000, nat_lit 869288919551535153444762104475169853069153899779732061066955505200, nat_lit 69059137889763125517133774385229353098508820296226194744466052490⟩,
  ⟨nat_lit 4873592171355714748769063850425097561803454033588839286771384889000, nat_lit 939568403022434800794484711696350789828333799428499684622160318000, nat_lit 2990056236866255809051500661274935493843338477040755333927297717000, nat_lit 46229224648182696116343595017820136646714941593183625700605141920⟩,
  ⟨nat_lit 4619680844326766422149082931060012324388360559550974087110863855000, nat_lit 2475035222408303653602217384598461653240542924524034484963041812000, nat_lit 2015537882604892130533055735857521319623284559044641098989778801000, nat_lit 85355909790537790036365138040753557715270505965225482453349065080⟩,
  ⟨nat_lit 19621208628082912377170774379613741857881634031150347404342758480, nat_lit 577751148361625222801027230339187740797176500276155786371749565800, nat_lit 3859585235863219008159891705002515061949110476180390392936833614000, nat_lit 11013156164317488009209908859450712951878983906032302447015664050⟩,
  ⟨nat_lit 3759926853442798184909828547856492149057704300474436544973640889000, nat_lit 4772679701189830650305949429224764776832507504606551224114077440000, nat_lit 1344978987672648154582509089653643209715845920788764054510130016000, nat_lit 32388624979941673826903265525915130597763347965258986204856633130⟩,
  ⟨nat_lit 3202186502136937298050633454847330002909466645072750482434370961000, nat_lit 127813101845910427489493482349944745501119652313315278334033109900, nat_lit 6587891890533250960548258577854459358122375350761828761945387284000, nat_lit 7297866407685377630998172267891153803954561250079126407858989673⟩,
  ⟨nat_lit 1436242060553368107622881364266040167312571558281989730559760912000, nat_lit 7876158974971915127242729895378327356393016421786077687934482232000, nat_lit 92842314135641861517789395168590145788074071730572105372736414480, nat_lit 13186407962703801850789411192885815143620927341349327684767996030⟩,
  ⟨nat_lit 911505031137106956471383628410850556920912021404202110566477395200, nat_lit 4148963919643738536482144451205758803048533089025666302978712915000, nat_lit 3877010851003097531942760427738993560849015289467553504592874919000, nat_lit 52906390295596381922809051013165303684390951222350077514738572950⟩,
  ⟨nat_lit 8302711663821783789373898079755419439113781859051120506389785693000, nat_lit 512866837798426658951717303728687365769223554623174629639143790000, nat_lit 713939321308195549710378323478633074371085908437426016432317097700, nat_lit 22942250701831682163942333518840520869353411324122011831108477950⟩,
  ⟨nat_lit 124409227719121223860225916691905374704938578783930194663736102100, nat_lit 654719298003753634674485804084746660074928402076678851553356306700, nat_lit 8430614187978810125982827796822415729468344736564725057830968989000, nat_lit 13013637502108656647424767706312284081917869235185022375051482200⟩,
  ⟨nat_lit 587634919321481846559312833973440086281835882627304925042610798900, nat_lit 1609934648460256476409638196490868416366058195005764603309415778000, nat_lit 1628569537956465214112692294299069617063210966639574709876734487000, nat_lit 51296416604786982256131336189413778493945643555854115325511625880⟩,
  ⟨nat_lit 1961751359402574352550480944995761783089723023964612121186776622000, nat_lit 63379259636174916669011860433639272221175251436014168131750441660, nat_lit 839275045861525797985358270682809381012725606185028940108055407300, nat_lit 14271305926027821638537252875193614319684926082550512708452344600⟩,
  ⟨nat_lit 1847281031905274173496302252430582756618374598769692551188489801000, nat_lit 556229668049998877904864693542752673340924091503029063003721152000, nat_lit 569251357859169375369387539853950403833409383106576011249081459200, nat_lit 39422140991601503956604352938030117589730013389604542525828712670⟩,
  ⟨nat_lit 850165068605191726545439359911744647802098975403292548379838378300, nat_lit 133916796450669608363121088277437889699161337474560210629545718700, nat_lit 755506924925467820586996594573900621940065711234705957505802634200, nat_lit 15618828065562141496861600673780081871315178492936187148909291200⟩,
  ⟨nat_lit 754157461317001557324248913131266581852739563653010180271818692800, nat_lit 7179623019889959501536862297323861979197782818436985663899877466000, nat_lit 1441679091893600995335831679631900228966032894359592859251822754000, nat_lit 40361565417477635027434287693163066739798380958110106795324571740⟩,
  ⟨nat_lit 2754149657986187819177495805826553845787010866314767736483022556000, nat_lit 6365847880793885858854615429070647596453860665164102245057183508000, nat_lit 137087281460383134528272553751003240694203471075526724948785923100, nat_lit 27124325717792879487676929224132825179406489661207558761100209510⟩,
  ⟨nat_lit 5322611774815273566997154952546613288487437320110362445895916060000, nat_lit 1356498359548061219214078348303959657103676070534513982347054702000, nat_lit 99546358150402939376637285321585636319373471255065144873583886060, nat_lit 22986108054614490631506975291611272787440141828474428936710485140⟩,
  ⟨nat_lit 1798225251877369693618465112604053039867848167310769957486542030000, nat_lit 152172633684702423955762604048271196948735172683406606597754660000, nat_lit 7913760896333797070647628482136469909724750370079704300476392354000, nat_lit 9402044953813406898285240728545191819999823885633380844327185129⟩,
  ⟨nat_lit 451481202335930124952683763006124039007932378059658485402782066900, nat_lit 311522155971796761089389510263972390585428000323176466269997011500, nat_lit 4151005160830156402260030709138999103095632100290288780703924648000, nat_lit 23505180310328767459620248912794666664976143404431502375128048550⟩,
  ⟨nat_lit 2459404748081613544700736186686517606352890584110908606199407433000, nat_lit 3557894167484739661434909753589860860857955745200412236652609982000, nat_lit 1250698655318216493512016064722471238793731030831364645738788863000, nat_lit 86751257162049871459787969889250315161161555913449694874048781080⟩,
  ⟨nat_lit 439596973790501707151061622276572457700017368823779400657287368500, nat_lit 8817548186023698473224484031284031805460385589113869677497213141000, nat_lit 22876339442523646529499786539501224770089636731685289695806024020, nat_lit 4631182074298617245611250868211879114594417007623921154365061296⟩,
  ⟨nat_lit 2757297017656464087285465717036291113866946665726546708106142725000, nat_lit 104358679862196460944037304077297037149419576077248707964963359400, nat_lit 185378754234779233426703812946494188789632657378374476760474447900, nat_lit 9683815531229357637812383766094051216183514586689085536370603037⟩,
  ⟨nat_lit 46225553882097518072144697010169097037744548183319312157501294410, nat_lit 8887734572196877248813703150465336050849733522362611135272352637000, nat_lit 213931175858201586425828533706417488021241881458849300551685937900, nat_lit 5048288524241754422818218073984426914795571753054502309300802397⟩,
  ⟨nat_lit 48030898241424540639579074835871946248076966546047180295935778900, nat_lit 667395475302324820722891408740966195096124146381069271389021444100, nat_lit 2094551463602713622631887714444728467271682360017777658121825963000, nat_lit 10612750863737633002151958367242790112639726299317564419063547830⟩,
  ⟨nat_lit 4573744811235079864541662815104748985935918469686312598858750488000, nat_lit 373067388909445438371862598319313178374113458525478297417129780800, nat_lit 4250636153268251769797998956645363602954685761151096690215700197000, nat_lit 28178443062904228796701568856239894259887246800829100444992424850⟩,
  ⟨nat_lit 2014237069996699066708154486177352825878320770693912841896344516000, nat_lit 3049024847086658908540427446266254893115219365067188706875523165000, nat_lit 2475618641577314196987900820789358723672468464934852058338070543000, nat_lit 103145076516097357977274529243386215785421524778188379504027516100⟩,
  ⟨nat_lit 6322225577055995539936974435600029064877888897053423618201305624000, nat_lit 772239626062443043362653293249523332827533164167098682559245118700, nat_lit 2869841854178058021569200727512102393380534200019391281765061516000, nat_lit 10396421538423815896313955049105176862171199355693543140300815260⟩,
  ⟨nat_lit 168784429237984947137004656987330763546057800308728594331006502000, nat_lit 1673297098664068451740730454123613954183434680260792529562140481000, nat_lit 657474230844696681795453975908233067575692653835656018807908991900, nat_lit 23446544905183203517259217713403473409708228059749704156636655950⟩,
  ⟨nat_lit 143583117268722072175495875531211890730835630891728795829586217000, nat_lit 836062754918393048283212543962814009188875089298360673341692783400, nat_lit 8872253179367634964920198940688676782311692287990664301454006594000, nat_lit 7674230245128146264281963500103038008121738195572402483413142702⟩,
  ⟨nat_lit 91502816217006941396999991301354755338912996174781743340053036010, nat_lit 3372343919331929809472799859437596737263385097817349218660929797000, nat_lit 6389349881262826615818477721707921664032468374129723286137578528000, nat_lit 8983813495105961750918127131035351962338930359137781757916322094⟩,
  ⟨nat_lit 620218958760258138773728752662637668659024114230393383645439103000, nat_lit 552538857580653350935952292049407985032320050809954869888245807600, nat_lit 460273848899084824764893926518795790383914298988823022876303479200, nat_lit 15706883875310827998365453630369367869674803749690283014064824670⟩,
  ⟨nat_lit 90187820208597015536912666083729982065612363586532892535817926570, nat_lit 209153286067166220700748933669372485480387037159675281670155218900, nat_lit 153000378099174502096617959787717931482181586172510103611271082000, nat_lit 2989353500802511996431259632945881787829695260095005754920179584⟩,
  ⟨nat_lit 2637087583633548649193230809754025519567370751865953523043056899000, nat_lit 2613407828449512620341530502991229043364851213837967976569423461000, nat_lit 552933829369668567262125289788860321728398472975880532800138497400, nat_lit 78226921736688489352980085419422520216512502837671107178424230420⟩,
  ⟨nat_lit 1641757733334821174660950597480064777517512784312431123943816152000, nat_lit 5153459580055597796641291724053054564410910015093061707772446849000, nat_lit 154332588719349658011684553358174183255538153711869111730991161600, nat_lit 38910918244872139683112993369243872661840646188453275087765273150⟩,
  ⟨nat_lit 603828645258439037313562828767493683475731052389510152143281822100, nat_lit 6026745945466393272126469330392276679840419077125550126744663278000, nat_lit 1666210306425383542816000836000660829163032752719177490607813585000, nat_lit 61530460668439303879123793795358166571545122573413641832629552050⟩,
  ⟨nat_lit 2050399080440975322130879053166850864142416701789754123974833427000, nat_lit 729524210698174413759343901691264049576745487043081223497140809000, nat_lit 7095729989657400492153736291235836873016837490464424060670721755000, nat_lit 20948113058023785337210036731566824724076940681695372622937789260⟩,
  ⟨nat_lit 7363485787761154392685430431135514269159190284989696485835285384000, nat_lit 881594827768108347010452045969017579439005304544402456008074168400, nat_lit 25767381359495524684463764984644960423131530952935397399696975930, nat_lit 10421570276895456895379596671335182106500408456129122422284496790⟩,
  ⟨nat_lit 4820601769681943326190894376788292206026355730692628606658925874000, nat_lit 143693835048434334503831953454316512754067958738903888054220864500, nat_lit 4883687799666249167615845799610493438258274650772189126037425307000, nat_lit 14169555077561631212969360318355036599383560473552705257756774440⟩,
  ⟨nat_lit 139202812692597760303755376097259503706099005679908572993946584600, nat_lit 59189852397685155087399300288450260189246108587636770102997561730, nat_lit 4926300744376323370455585447874744161720521286980674703586151198000, nat_lit 7653588119422877204367332958934571517863828853484414174851644320⟩,
  ⟨nat_lit 7668197010445239358230524479807154526719403260803628345082611782000, nat_lit 124453451909167324623415138200307812507531044587891202281981984300, nat_lit 1741255831061748823692352096402578347238797403507730666924455862000, nat_lit 16973196303043196602566335879866931820602759895570401779373825620⟩,
  ⟨nat_lit 292179761285148063875284794782019692326485766470661471439334381400, nat_lit 2788888736888091587286287764058770754385972740981968433387248897000, nat_lit 6329799682314416603563962178569988039750138373837657502203793646000, nat_lit 32290713865146648183385445254332925328749331161403638953764310610⟩,
  ⟨nat_lit 4014664650709986812064079157825328008880633190695061958938716784000, nat_lit 760220399818681570565677307013022611574335874896763578799289110800, nat_lit 2588043747915636603089704225837113953342002168042676728621127354000, nat_lit 89718749465017696458344793792122092044111965589982795714790541610⟩,
  ⟨nat_lit 143001862989848916022502751466420758267390335163872076598811283300, nat_lit 6547184652673813002063171500047047231293363353270779120429932336000, nat_lit 351937138770774412374237319912463792530677723993324920372911871600, nat_lit 17125576172649192587483194353668119025753235074970276610178027850⟩,
  ⟨nat_lit 1222870227042022933661191642397154236331693554258652396328911873000, nat_lit 7458442005893575254348481363951386187136178787438564975903962285000, nat_lit 1158409898404799649352186034706888289544034128385342535171643441000, nat_lit 20119738717301218642759268690376768362830487158110945800476768830⟩,
  ⟨nat_lit 1789965181489697015460905637950168188251202140181338886920757111000, nat_lit 109413273507466315285445134439223115145927494090203611335133771400, nat_lit 1928131568999359015118998144824518940555766204375186212889302985000, nat_lit 24704434821588347570971783220775269426123358168598621774431948040⟩,
  ⟨nat_lit 1182737817994424782472523393654438528454031762575983767786023113000, nat_lit 6341777489905091807568058598750114780553430104594285019865775704000, nat_lit 2383994136078240245981698015189403113783578897511400344834420774000, nat_lit 22223488296409998986924425296228510284354828813899950836293295880⟩,
  ⟨nat_lit 2501746382373079347453499597660686967554229285779063145215477719000, nat_lit 668776274539837098410691539696798180084445443504631216831139581500, nat_lit 2836340958464020959416875216574350586334142922864903334887485865000, nat_lit 71117076853180503736630300157881221751530889238449036900776721590⟩,
  ⟨nat_lit 1509277309659514609593485537247625704752485072913380317335089884000, nat_lit 147093570702910103254546121595940764422243411155791980862691785100, nat_lit 4415040284369679236857463950289649945317476480174431035084457615000, nat_lit 23363711077699552238656360745867808601376143771792891173946121180⟩,
  ⟨nat_lit 7867807272347784621511482473552283950403489806204117594299748845000, nat_lit 174622282890552752401494913600016996507426775191841380353766132700, nat_lit 1915562248300107256753685030701245882533471650833034601513296143000, nat_lit 5429295842682039074623280223238586565971694458936080285537282194⟩,
  ⟨nat_lit 1309869744203093684299285551820942251561495049829234818175854120000, nat_lit 2461085286888168349666932986264503150912232226774540085848759108000, nat_lit 3015225366245411994428087504844607216181155517362764370914054490000, nat_lit 79727438582337527584771118901183336716304860987474778087527667340⟩,
  ⟨nat_lit 70830201382217145516497142867748329719133735483578143659675181520, nat_lit 1565061716241770838726331566287542582471294083871621299412491506000, nat_lit 4576939883219989772293685650752434937260981132544197453198641293000, nat_lit 25072282874107191699664541717760834645143592196094291736380390470⟩,
  ⟨nat_lit 6855508795232490988818594322927898854692581804874461645733293734000, nat_lit 2711071083405543660381465034942707042440345526400271090927543311000, nat_lit 349092077436031395725545694173996010341275497008451191651559941400, nat_lit 11282944844379581269952886255289600130845783564572117655370198470⟩,
  ⟨nat_lit 150728224812827701213135302623964852030854389949284488880658212700, nat_lit 5877253188808434041572478322000246649125023075275112928021833741000, nat_lit 3258588474071586767585336768778606785975794919459042510636540490000, nat_lit 25743098572141451520352795062948314233597002208747316555393638580⟩,
  ⟨nat_lit 8635223660290971363537264746535727528939235756291606466105600125000, nat_lit 66580444360294204707947913220119910163851708302879760327486114380, nat_lit 649961974777396223422293914766293061951639176470385318089514673500, nat_lit 6408705525378849570620241205742251138176133077315265387781266342⟩,
  ⟨nat_lit 3148367364821974085794744384609473076120982390646471799835263915000, nat_lit 157878740503877792563515162474845612601863104429188229135363127200, nat_lit 6156167514494411697962576296870600192292563927586010371181118837000, nat_lit 24062771094235329053302023307594581332437863785423352739486150100⟩,
  ⟨nat_lit 633295234769962568814616438621417589252050003988541927693909816200, nat_lit 8343309262728189993119967162029317362239809145999589046515750357000, nat_lit 450025717684512933067310258808639535745374596932509964731454794400, nat_lit 23023635925517409735172291897068233165474809495228160241838004350⟩,
  ⟨nat_lit 4879299534774844924975623431772086829715502801949152904209630896000, nat_lit 3475651672983891962819188527862210250080361889148575519727875892000, nat_lit 330618265810784620716154855608872742836822622891419356090843850500, nat_lit 31627460700258977230859417213401696896625604655760910532332090170⟩,
  ⟨nat_lit 4589954744339691510460277534645098304049527763739102112618817807000, nat_lit 30871207386660546075392949073473062746813950224924053733777102350, nat_lit 4568156846915753360642557738195817299422813511157428311996190419000, nat_lit 11629248895925196089716474758753425289802731852985647101680961880⟩,
  ⟨nat_lit 679245525077420263633599090776429307657858445153506752418199422800, nat_lit 1524162333599477242532247838546265266681145873717454341063938131000, nat_lit 5044613752867710886685872524042196161410147759858582007687821916000, nat_lit 69152057973608648259394037673063832669192831463039049256817026150⟩,
  ⟨nat_lit 528246467364300234957385992230518351204140399997020990468788186100, nat_lit 3058552102216762929156013868938251088281968127175387251374204793000, nat_lit 2217098774828075139949354608384986542630217999787875505765543747000, nat_lit 61333422345063802173053260425990368277948257836735097020217514120⟩,
  ⟨nat_lit 4175144507099608927690372392813920021774369221594135514525808233000, nat_lit 492546894452723014666256391076640824854781564925992697875327224000, nat_lit 4630121602306485602964020268288783042068025190195747508119338114000, nat_lit 23388808069435951327707305595192816763914943655676793943150230570⟩,
  ⟨nat_lit 7628536049283793188007470897791401423312973843508361763025652456000, nat_lit 134103728988573003835454517816075905997924636706106412740905300900, nat_lit 145908052671736721834275285345133957078084991242491271718112308700, nat_lit 11011484924453434758622262727275043546916449035325300859753755720⟩,
  ⟨nat_lit 5977917272563969216188973455083052252890448435530491735803558561000, nat_lit 1946786844043173095773966671866761880256483848432377241936538209000, nat_lit 167799005844594832477948326317482704137543448376392695863544319500, nat_lit 39736092297894952260280772815206777046724558446734057016511651340⟩,
  ⟨nat_lit 6111398518958130561628463845706928716859785080268548640748215084000, nat_lit 2837686663603776539583407988547385015137420146872067439511554238000, nat_lit 473795271715363032021465407556469796008273602432982510454192485300, nat_lit 41273640407162713205015100557090305929235143344647815797739602960⟩,
  ⟨nat_lit 6977635471845069689929503912888181264641145441690591676543418006000, nat_lit 399427688745508398238686836062481354704966986461289692238579074300, nat_lit 1515750388568888184973530607005636520479180932439325080717417494000, nat_lit 38515059215016385603253455980374392900520419215218735558619415590⟩,
  ⟨nat_lit 167312497992022975216284959541911638983243808391468086656458069200, nat_lit 9541438374143897174919059559769230520266995530688194387004366833000, nat_lit 124750084681606356473611897565646332548964561370949832637393302200, nat_lit 3301867118158493683381668681020912277519499720625110421751129377⟩,
  ⟨nat_lit 672600471554056449138074089042788175341859540684590681170538305600, nat_lit 4322953801161753081658234170035098653597223866009620782445858115000, nat_lit 4544799818144664434348933188750232578091558050159119758026616353000, nat_lit 41989133268705566150468205929053770188979965449481885058650860910⟩,
  ⟨nat_lit 833803239981114093363375572609124495469239055402387239188319076800, nat_lit 4610494533218152868013824653162003505485401550458577841193472446000, nat_lit 103752141279635589805386782946627556057640791723319745924755042700, nat_lit 22507541282496577872957342270875106458405813683516505254007503650⟩,
  ⟨nat_lit 683456324330069059666287879754676578185192517999222788536224252400, nat_lit 916038733357299884765030928585528383803451142620400595251805650700, nat_lit 6944641345310379023143582403922884679208351256363098383876219691000, nat_lit 51802974109279234541369373924918742640307402999367066653072911210⟩,
  ⟨nat_lit 8333205367538054756198893349880020366964786264115286441052604036000, nat_lit 378850911271654551102154452233776125993633720379199185931115469800, nat_lit 191680035351110892379948430978950682147665647870733566417386714900, nat_lit 11461981116875038320574864444477738702704018703999476951858991770⟩,
  ⟨nat_lit 141967995153552021585825015546617765568976934255746329027798893200, nat_lit 148976332552205322245918222059327926299387196858548409597840864500, nat_lit 1704387056820209441545274187701627594417406246087445475028699536000, nat_lit 9564914912127872537910796299531774418793113495834761454524144633⟩,
  ⟨nat_lit 6397833127668778499569688342087236934012976999016659963562327142000, nat_lit 654762403213496765778777538334735518887265888539938414167547929100, nat_lit 256947460806062714018754173756601129280142230033514139065311407500, nat_lit 29876763105744776051783518307079881295230797187748564810621962080⟩,
  ⟨nat_lit 1831385590189008846238722212024646440844924104054282690628543506000, nat_lit 1703881928194572116945725918303734999889717805112044311544528038000, nat_lit 541534194304467614558532407933735269888639254145201738642045638000, nat_lit 54414656109129227863223011960425964701660308340850738057403248610⟩,
  ⟨nat_lit 577645094975152269817908076279210367328142054456920723888111096700, nat_lit 8504612603318364297059382276913642166192957831839314166125153788000, nat_lit 835106238203591505037870963440762919462024222897988276470551493200, nat_lit 9085640433452795843277089564516221610404284373025141886350569784⟩,
  ⟨nat_lit 1638047831326753861312791208039326530221575511095357218402583020000, nat_lit 4953982819089869372446260756759101186165950340839981775960094756000, nat_lit 2960293056806931497140792744940537297630208363929413583773440757000, nat_lit 49727280566972986103830933450929469836249597865373562494018471920⟩,
  ⟨nat_lit 4082549458789515782993042554203981472618244933260401932850873163000, nat_lit 2689569054234117457631798671572175603379704793854288318428404930000, nat_lit 109144405535445378872107872893434346065145480995590655023087301700, nat_lit 31641173179362419066753842960225119696673647513666237483939404110⟩,
  ⟨nat_lit 35926802583786898781780475830550661547673157620202877633483566090, nat_lit 6916978974650121143538917785831841404473031599397936872466700597000, nat_lit 2881808985641247574990572501859988159115323301321844075685548533000, nat_lit 5926880656274868854649787018876025693772186667770621675169067450⟩,
  ⟨nat_lit 151064384143443530824814048025744605980563267376037687606100499000, nat_lit 4405822909090163686831869148182378847037244421806000399279721286000, nat_lit 2545299037565788710508428231026012350384024664879330889536800249000, nat_lit 43481350646683448966941959733571442451817187913002122804648866750⟩,
  ⟨nat_lit 5726575698272523855436408882057237080599934661824729752156543756000, nat_lit 1685189017052629286658963163277990094302036655520359084491755401000, nat_lit 755180426638147934878268357039102421218200160788530579190818404300, nat_lit 43885106613944466808065446120398057421417795914861674230126477750⟩,
  ⟨nat_lit 552200768719983417503248172181306626889860254339650288042902598500, nat_lit 3829644638598899593230553540704722415269075290516595101412680616000, nat_lit 865034262283622312718939101751796275050143201560463820563974484900, nat_lit 52319443873931552427970334187095158927446561287805704214258693290⟩,
  ⟨nat_lit 2670661652898634019874767557683466422525677296700092586005138329000, nat_lit 2276526635401719940348738186214985070037538758865828515316777209000, nat_lit 1407560045901440373081811272229424552407674652305007404300556157000, nat_lit 90562873570698432069643865021046533027006997614713415942469563150⟩,
  ⟨nat_lit 445019201505743148154421452081733405287912577684009809075129215400, nat_lit 112790687889906454203529342317661839267009521195351761785924546800, nat_lit 6387028085335669740826052288738631471318069706277808157480952117000, nat_lit 15968832774039170312435410141698459333178433635801604142449362070⟩,
  ⟨nat_lit 1730572260803694973579627209714146356681417805220120977142109086000, nat_lit 3359870557154901200270522051170213766865233099828994414029411134000, nat_lit 87173724248147265753248115818483834623725750117603380825473241510, nat_lit 23330178603940862942095547446029540454824864615855452221085223020⟩,
  ⟨nat_lit 3549365334884683718190414159199548172872066117060682768187469010000, nat_lit 722007790675927006779615098522628645516868700025046796467410917900, nat_lit 5614831447836078378671666117868784391972501182020906447520509601000, nat_lit 23448106080096233680776423691831747354596346715237443148951918680⟩,
  ⟨nat_lit 97845827492638879967206918266013351987793963977878550680336908720, nat_lit 1405551878876217682406650313543802486302754241452144659012573292000, nat_lit 1530603352384587242900216636812478211788125945010130171255841309000, nat_lit 15615901097462532614145962438272603199732161726543163564280384900⟩,
  ⟨nat_lit 1524725920545808865073538782327552825401299839284696180390551200000, nat_lit 4288342380043439817387391027737004748956139416429876041998353825000, nat_lit 725296319304121199194387017136452109017606423594728986159672883000, nat_lit 78101903593309299917670744415552686550330552551892285503851170000⟩,
  ⟨nat_lit 1470749667009834862199964561266930137056470392927129286246841263000, nat_lit 861327510886518370386515085357061155573852270713211910920989849000, nat_lit 87043926249717263911041412484838725744147945185241656581322586430, nat_lit 16175563675918689233928769848616669610719020529919255227325495010⟩,
  ⟨nat_lit 1168088992405381747460180920953407408998832976643122153632225104000, nat_lit 7192093160545461605527268286411716122827972988996137323916653989000, nat_lit 152074945720213020780508731547091335343356614165597536584653292200, nat_lit 23285900188705454717942013733986157764524257781483148319327919840⟩,
  ⟨nat_lit 470818862146219410547882610358062087329720338089992222449616517700, nat_lit 2243184775638901798959065177637229862140512129067694768223829737000, nat_lit 3723848902190363849282828003047987033211402790073324996264460948000, nat_lit 63238212513904416823083446891001600763324036778993954099134730320⟩,
  ⟨nat_lit 722630381614767764405327892335684630186914893722172678237996198000, nat_lit 3817916901205109163551005523123687682807924769811363930356667305000, nat_lit 2854477501648887363852626907327529842471415013990211408107000645000, nat_lit 81557768581399407970917087482756590178284158490362790045168049450⟩,
  ⟨nat_lit 761239933315693600176694856140633188878765544676567882522654888600, nat_lit 2923696220281781250081121242852303866636463802984630124736605451000, nat_lit 4228422441435631662792834038711097373406770735521155501378507133000, nat_lit 71069479149723568705184840259447603838904980847130573892997260580⟩,
  ⟨nat_lit 162167170448866318125579726798396960953838972264726903392907324800, nat_lit 110593158865919970141058714379234178257955517739682900380720127800, nat_lit 8024156668539981879673038477530905155428066136137627419451253857000, nat_lit 8092810517762090916533905480540905789058376958650324928593756034⟩,
  ⟨nat_lit 4402509112809005910798909068335365736226009096325147155913260446000, nat_lit 3666156080724581552159841878608060130610621928716134931168117936000, nat_lit 1278711378241887088870592466855806154510833950249813173390192185000, nat_lit 65231714914565570186738805609166732219100733830368869627989304960⟩,
  ⟨nat_lit 712862661203811446690522490298994603963402951578388402333882083400, nat_lit 2356946145614150324870585998821823945433781511863943376538926720000, nat_lit 702938968709779329219513857913254141919495430612221447581373444500, nat_lit 46477957416816878303558754909364945275819048457343975444802258020⟩,
  ⟨nat_lit 6084505318379648293083623154615978498975802960567846765378802335000, nat_lit 78034516888824330978597502541636721422953880196278467596192596130, nat_lit 3030222609612095296072432625235548782422719064217435940221344871000, nat_lit 16505674903439847554501865513213276784399256707933781966507011010⟩,
  ⟨nat_lit 2570902273122936489623054972621777896165341565240798511917717948000, nat_lit 1230180379244389789339964046616628123090371207111231687620980913000, nat_lit 1037697883987309213227602164742748592546451350022462818465429602000, nat_lit 62691582475426948616746186932056358899514484472010981994958398280⟩,
  ⟨nat_lit 5689632399376703726569935009781579231287032571323628400222989866000, nat_lit 625577793076559448221252258617746798307794551969087324230625995600, nat_lit 1405172533847782555190508004239130827285175695751127753362236437000, nat_lit 65268182221604718698428285967970519366465371275003284273886667040⟩,
  ⟨nat_lit 135266726559811294496679881146236361290555945294722989898488880400, nat_lit 505699787990306900293376753595938070126617400504491827653792981000, nat_lit 5472008871023655742886758389950845494095244706538507294596855260000, nat_lit 20483385268456503115686145397565686055651942165724719749642065790⟩,
  ⟨nat_lit 1475642583172108779937823165160896714265730095252435959425411894000, nat_lit 160101608665680690157430491311865088154364726687001202825215552600, nat_lit 149072717438562312952074534049048405103379048302812724592019769400, nat_lit 10663897724363267250789602671937093380644543419780355851068635030⟩,
  ⟨nat_lit 4164030467867452073107082762404802414041562586203000157229943020000, nat_lit 2394038927660782819578566455324813483328697579078299487019009962000, nat_lit 673766045187008277311696970948222688100950484837064208193869134100, nat_lit 88056299118195103037968741540448778234467774398868437710464466820⟩,
  ⟨nat_lit 1274417667839028829144881899724045046603220186374605352109737667000, nat_lit 1643607398995022723048285688560296736340703364182947368360543812000, nat_lit 6968821150203752804424433612371014939439844336618994056018657300000, nat_lit 22475122592549150474328017039463877619489679000677502014980396060⟩,
  ⟨nat_lit 142991770794788347911818087902836445515625885864005836752860596900, nat_lit 2041189641313306173145424320115420735086675999322666987593720699000, nat_lit 5619891331549570487278905531441914926295839315404729778379060173000, nat_lit 32514358012646931953734043166515926643699171008269952116606668970⟩,
  ⟨nat_lit 66793319712149928678651908729083895935237796639288118036070173800, nat_lit 8394527274149806348546175395467240522077477948658638689403951907000, nat_lit 1388567292824782125449376104662513699970164858115062826406444313000, nat_lit 4768928950346184658066456954342663249513056461429038413356061652⟩,
  ⟨nat_lit 118536739214637428143007824476274648753679053343028267514718174600, nat_lit 609436173725248559723645234321577805242069963686768069382731898100, nat_lit 776882474541804349567921517281092765361497033394955156909258074700, nat_lit 12740731464593143932519411301814878872904675930329843674509704820⟩,
  ⟨nat_lit 1313818756661717828065686727205482151821757130261654992166852960000, nat_lit 479423662534834236718543009836885114224981499420605625914875226600, nat_lit 1328505505354489870731419764451039608268542028265009799317739045000, nat_lit 30121423078699457685369907498358460399255754158775004480080519590⟩,
  ⟨nat_lit 2073189362575542103949196094607509365410433329957338317340223344000, nat_lit 136575678808399759079657798074333085429961913283688541284828854900, nat_lit 3173939676536301409113585489829598409269092906340656080638712130000, nat_lit 35766726383169333260780694004020045113789528285495522676600369180⟩,
  ⟨nat_lit 446929740571308405641123094088476693258655681369034951573986145100, nat_lit 963237077739501936598739729973857231524096031330406152715935935800, nat_lit 4219713356970626613478591256824885133579230268786593698243846667000, nat_lit 50116586292725462286532790978105804899130104872315392224719199110⟩,
  ⟨nat_lit 9503940454732770984017391617171099431551755160283321863490318797000, nat_lit 182878670393513069564803454232791007907145003757972787160244797700, nat_lit 157685605926760103029803347871814925632945951052038941235983554600, nat_lit 4426916154762254359308465335016354140827241635050862047228363194⟩,
  ⟨nat_lit 2986040463382630255079451934387620562692596427237934255131359990000, nat_lit 4006926839029969621518159163182789567170827310747850787003363834000, nat_lit 486133654070469131098694939352131056016485067126454129279067877700, nat_lit 72250221864629084693551905650699013663114208945992053468714580920⟩,
  ⟨nat_lit 1961847053565622453444517493059564501156228446300812225449343225000, nat_lit 1560660737934920128997366784703223158511969276861432188130528718000, nat_lit 2266492472392956100029416841910367505829970518510460259948360464000, nat_lit 96580213014884472109416465364112603573511705322578868256058231050⟩,
  ⟨nat_lit 3878657454092717210958267139336572208289068764333398215721648698000, nat_lit 1261981636820251612045199648953860941183103573791191928644605881000, nat_lit 4323620789006778020236198186711931931441291873426163976966303824000, nat_lit 56966140319482233170794596561710837066876178321304223720849117380⟩,
  ⟨nat_lit 3677766697238509807520400762535158688326573442507099417789549382000, nat_lit 473876327430928714995741774602805965494352011885983317710798697000, nat_lit 4083987134722951544489460743202242339052037298205415306328413912000, nat_lit 58432936910345900476344918524649079481318908773303151896730444370⟩,
  ⟨nat_lit 6002744769519031210483145139843031076623727201176521052200987517000, nat_lit 512713370269707813861115918193780217790734037657087301561442940800, nat_lit 2910739448108588055853089680041526559366060597023394585121984155000, nat_lit 38853240347228154341677063403616709254109783772072208637389047690⟩,
  ⟨nat_lit 3249648782566412319772515637666632622999057339166845457100355671000, nat_lit 4960624732983755416002943023769245966385045809256092439186602598000, nat_lit 494748378027759589214916997886707547203067743175987850660586283700, nat_lit 57114001439484230720359239995988143170884004312774511699542925560⟩,
  ⟨nat_lit 3975298100291997239805725124979584344618744082253861931064569321000, nat_lit 1468788190962069435978033465011497614131278429625421695119971316000, nat_lit 3196394334436629650466450459378100767295695923403415474809814820000, nat_lit 81740594893844903038259931688693428750765805195354659556261733000⟩,
  ⟨nat_lit 3791283908122563712641002395666847246227464463190624458618143304000, nat_lit 1336833387142208821122479743025619266762585164456164986809564667000, nat_lit 1491193167945977805263249233848890992572772030607039129660787257000, nat_lit 88740120189564416096279759331517788808044570000601266161939130740⟩,
  ⟨nat_lit 3632040260406164933514031198511728735465362376589272036290373575000, nat_lit 170216419096318881599899261725150902938914882693199911356007379800, nat_lit 2860938857207356349137725951730749998308105101885432899878108523000, nat_lit 43155082560981615549907437799734875862758809577226734817131313560⟩,
  ⟨nat_lit 1604453900224612772295167673939445033932634874018374593193420442000, nat_lit 5672093847770975053552684396129972600853956032775627247494260425000, nat_lit 1742966183649890649935650571713364956905980551706533652356223115000, nat_lit 79513420780767571719741242906431774125994422415901887479034808050⟩,
  ⟨nat_lit 6078489561052803830142250549589207231552156646665346840357139825000, nat_lit 2089573729907412628269313727671139437162036790653153596346593087000, nat_lit 1455367193880491877866342095842512622735422733478677877359923760000, nat_lit 45607991827399559972118037063587700696273880321262376678461629190⟩,
  ⟨nat_lit 615637936533718876187043191428673493867240320984910095838019356200, nat_lit 2099728317727427355718241255748394253339050454300574026481111860000, nat_lit 5895800386243434701203417475017334048044573194242411477602101957000, nat_lit 59930330601965410208220971239321245251733074153914897646642895960⟩,
  ⟨nat_lit 6539246183124882857462309896921989289836458508109331352222034104000, nat_lit 31512962006170550960260341014688997496333249716321286586990304200, nat_lit 1825151376570535183648171987358522900479888653040163641397819036000, nat_lit 13766556362430311082012369292478182877708457706236696201875680690⟩,
  ⟨nat_lit 3668339160564134024418406392296779100328825980850913385121354846000, nat_lit 2566315899131430284977459382724188080223751905962327455452540895000, nat_lit 1702737720995846005933246489739571275638919181574331727451801902000, nat_lit 101029903485692369961227787124328197480973050806978006871615971100⟩,
  ⟨nat_lit 4248268663935461312432765235048109363759836763744744993467867208000, nat_lit 1599609621897638935491549284736691447790259590018751450995070464000, nat_lit 213661012186954381971980428374481960506222455132344937740439820000, nat_lit 23344760465208293405197733689795038969765602223626005657185957440⟩,
  ⟨nat_lit 4323381641681334891427314797430529035562031662955638061519342888000, nat_lit 3211990643522900466757875450906561959108366185381449181461356707000, nat_lit 2323970651260352021402911727495293832875135549407532386691848395000, nat_lit 43425442686090773502077654216614990448670450562489015659825906170⟩,
  ⟨nat_lit 806090986296074495489595556220202366395884091545552592625144296900, nat_lit 128045091151116304942316992341161549183631399420330645892153226500, nat_lit 4960299069924930215465837131502710619290680141135153475018994888000, nat_lit 20752752584611396263835964524319008867408349828340322436402890690⟩,
  ⟨nat_lit 153216254127514268767220582326077799573859406505730790253346025100, nat_lit 979311743713060776887283616640056988471500663939324083303125697100, nat_lit 6264993700884918788797630543418244112418195235631097591221777823000, nat_lit 25595279313926361490273644501334456411359713759974239299862474750⟩,
  ⟨nat_lit 4414243908268058047033285074796653957236128151304965080083162591000, nat_lit 60811760839335567579603339178277619385606406984068162927582407880, nat_lit 3582590899072870991921717392626444074320958776057599855470370617000, nat_lit 23166119352342747492241238271720648758653499865133976002848001280⟩,
  ⟨nat_lit 7686320561524009095382420260191637758240075582896511824894889286000, nat_lit 126190633156989921354319832506383114315432484084419913374468290900, nat_lit 752511245849424452224293746781830862732781647610473746126183904100, nat_lit 16884272052645813299931509867574284389454631394662000173171541760⟩,
  ⟨nat_lit 2900059646272469393164517155191191619566640565284835761236879462000, nat_lit 396434365300699754407214965689426656044723656174365766916407674600, nat_lit 49133539350344580420474058626440980161890390818228994956021423890, nat_lit 7545863785517249563963012445601383655122509235863013143347970437⟩,
  ⟨nat_lit 1303530533454182268218554960717764253578043804682774965690262466000, nat_lit 599668521835337091517193996584868888117987780716605150708703338600, nat_lit 2600824467190271360303978197237415632027694763124107359894382986000, nat_lit 63174661313074625720584864418913821555890234011312278866220656020⟩,
  ⟨nat_lit 6084041360039834273283010958096626183023791604101126975587375945000, nat_lit 1132627303160991588009794581338960951438181724329663503984229387000, nat_lit 1751609369549600107992321398314896532707561444307551297157581043000, nat_lit 61614503215264250976118081395524291397610275108390727445662802110⟩,
  ⟨nat_lit 2699294603740972331845516848066462354797382707077754310036876006000, nat_lit 1657154367204928420315005244390964239414899115245263643131693511000, nat_lit 3886419645947194496346803972625618339786057256055349450135507466000, nat_lit 72396706479195353534729517894341227483939385298304447684421564370⟩,
  ⟨nat_lit 438260061448673261295221126249001112944268122863553297072559105900, nat_lit 643331458948802184180598339404054357454909110135382327039433025100, nat_lit 2705358751774563927405439070212883431386438147807825883554542308000, nat_lit 42303810793325787196407729533158056629897052741576203806159821230⟩,
  ⟨nat_lit 2856416057686023393094863342369760957996264176439185478756475393000, nat_lit 759002738148089609301928868452698139091697244313565723482238406800, nat_lit 1880741984106961366338919477532044493994299027186497451171572501000, nat_lit 44196350186468492021028789258337485036582834725743250017009786270⟩,
  ⟨nat_lit 494703640404756884323577351717663512429231042461986906805403150300, nat_lit 4083246572164080961225151655749344137067519423218746605788098327000, nat_lit 5362607134923438382917274908945957440599749437639460676079042472000, nat_lit 12474893867715953966431977442153121071671416082596116010761556980⟩,
  ⟨nat_lit 6388699534584460979603354388255353368870979622945634332055849020000, nat_lit 170275305020733785216036203692981276996957665241328305145075055600, nat_lit 795147828224731717835759708319324258410507209489627081779526724400, nat_lit 30520353786263419255756211176065438066754603502846263870967657560⟩,
  ⟨nat_lit 1533961442198183437817237484463643405086086507603144192376109104000, nat_lit 2055921428837944135961847867456327853020416454535021405236422956000, nat_lit 106409372516680284934768172916784775219329823845922472044819431600, nat_lit 25113738261512092977507781016576843837710664495947106587644907140⟩,
  ⟨nat_lit 2970498370539195537985925133084020305557520723869446873499914035000, nat_lit 2874781194505749691627896088626859138117124659561642799953698270000, nat_lit 2856825535345462139771196514678265629935455419256001679419059865000, nat_lit 107647374822872838077498553263202026388164176177771996040008773200⟩,
  ⟨nat_lit 5769119497990762016820707390076086436030710150666758445383648196000, nat_lit 2172549037748002744160603983955749135240370557283185629438830504000, nat_lit 878761197869964962831375279255073298957844749731683962016437348500, nat_lit 54765442531463037725550255692223385947696107517745172098043739250⟩,
  ⟨nat_lit 1641248518702123824155524976136817152122340140064344989889211737000, nat_lit 2550037652465302707366505367407146713463752009560778299094182069000, nat_lit 4140412729888447399102089712172726561583975449934894267213451228000, nat_lit 101685097011556053689577181550000222901377415484964145999345529900⟩,
  ⟨nat_lit 1322458678216596861270236631794436484379339369407001111886210782000, nat_lit 3220853653010875115550342302712114908585699928744040546509576561000, nat_lit 1704344544997420317198528640100411736737072698222547792995095975000, nat_lit 83119192684310139071248578605295068998790375293592742206062317960⟩,
  ⟨nat_lit 4230783846148094691726441464904249187853243424652388426973532347000, nat_lit 442212600662338259658210445147502874280179170950254786921937913600, nat_lit 1378400430633978051333230554666570118493107276138112983049719641000, nat_lit 63050473767961564165775986911891266875711429437415834631368378230⟩,
  ⟨nat_lit 512511519376789404051968030589379629653501556026757628273544507500, nat_lit 1474201257768999902689894364179321761262210233531342954350114569000, nat_lit 7538205592800438976628043846789821715403659332843066328300082538000, nat_lit 35286705978247088831761127436883302550432625707980162524149965460⟩,
  ⟨nat_lit 321056114570462496447466794932737873180882417478161449279492117500, nat_lit 3577067416986585373084661919096186690147064552897603027519330380000, nat_lit 4773700328223217763966965576879899395467589918460321272954615563000, nat_lit 43553226495198145189461156074304449730615878809986519183382664570⟩,
  ⟨nat_lit 54586845090677079796919911110139124163068801470726156321113992310, nat_lit 138801507908789890486819567822018857045047930456025999707455532100, nat_lit 6722954044071273233295337774022312455007434697499790875870609664000, nat_lit 5709627074365219428890173637125996126101970425153244285417258014⟩,
  ⟨nat_lit 4587263615875107831275860741861831093811115933685834173902626590000, nat_lit 4476495678674431227637804561024971477821543988955398150316063078000, nat_lit 500270797424522749607110829476687726356249730324889196585530061500, nat_lit 38406775739648408193985247670597910081990986439778503727161171530⟩,
  ⟨nat_lit 1439972031384626651029848378624983384336990146120810928794772399000, nat_lit 1140884215347720544703945519266213242918758940650956511916084932000, nat_lit 1474443151278338547739120941228518594179356741824804055347100211000, nat_lit 60895418909807230819216677684224328029920300439090077769498490760⟩,
  ⟨nat_lit 1563057357699276745971736681308377868818759795787966268217451582000, nat_lit 1498100214475116569260206806327551762511420747162889055213074802000, nat_lit 3907685567055423996439577931954390554816180837969286000179627327000, nat_lit 90181228601623922665558552867062075539499750954714828819064909750⟩,
  ⟨nat_lit 1408237728218376139251616831000727250881842551287462315375176603000, nat_lit 2365393433763527259137003880008444272043832073212361955825031067000, nat_lit 1298351960144175055913813951073192872192055758081046680645015157000, nat_lit 77760589967426920675027742651764674272146373422133933415802416570⟩,
  ⟨nat_lit 2674000909847241571094223164173128774941491751148360664783177774000, nat_lit 120977308259789970657588294267622350306901398237285220064224871600, nat_lit 4303543396043457111832676154800096920368064720770788644479843941000, nat_lit 35273779088906869692866043578843443528260915887916904928679373430⟩,
  ⟨nat_lit 126838652743266711464647769735340894773079305698535899654698011300, nat_lit 9188185217395794880737918064183003169587678128181980488978776630000, nat_lit 561461721834226179055814047025261829483725337894721977152090694500, nat_lit 3636782201202358191926562144092061611280904315130158822277016597⟩,
  ⟨nat_lit 620608880475920525960725725314105569554689052115146532770923012100, nat_lit 4709976980351967428132252341403024754240913421596277058724596763000, nat_lit 1434762936643139839681138613204234161099585281669300975452631008000, nat_lit 66654444474811298104440753115721365903725666995003569967982488550⟩,
  ⟨nat_lit 7062476043955224727422729828093657847112466374706777087831692053000, nat_lit 1614452889942290017330418478935724858168215479793819678488286434000, nat_lit 1290935055945801368546620535871293049711673172885896929416972936000, nat_lit 11593556077086980525004683838279331844924812229068336176850746830⟩]

theorem jS17_eq : normJS jS17 = some jS17N := by decide +kernel
theorem jS17_in : all3In (10 ^ 67) jS17N = true := by decide +kernel
theorem jS17_ok0 : row3 (10 ^ 67) (6 * 10 ^ 67) (10 ^ 64) jS17N 17 0 = true := by decide +kernel
theorem jS17_ok1 : row3 (10 ^ 67) (6 * 10 ^ 67) (10 ^ 64) jS17N 17 1 = true := by decide +kernel
theorem jS17_ok2 : row3 (10 ^ 67) (6 * 10 ^ 67) (10 ^ 64) jS17N 17 2 = true := by decide +kernel
theorem jS17_ok3 : row3 (10 ^ 67) (6 * 10 ^ 67) (10 ^ 64) jS17N 17 3 = true := by decide +kernel
theorem jS17_ok4 : row3 (10 ^ 67) (6 * 10 ^ 67) (10 ^ 64) jS17N 17 4 = true := by decide +kernel
theorem jS17_ok5 : row3 (10 ^ 67) (6 * 10 ^ 67) (10 ^ 64) jS17N 17 5 = true := by decide +kernel
theorem jS17_ok6 : row3 (10 ^ 67) (6 * 10 ^ 67) (10 ^ 64) jS17N 17 6 = true := by decide +kernel
theorem jS17_ok7 : row3 (10 ^ 67) (6 * 10 ^ 67) (10 ^ 64) jS17N 17 7 = true := by decide +kernel
theorem jS17_ok8 : row3 (10 ^ 67) (6 * 10 ^ 67) (10 ^ 64) jS17N 17 8 = true := by decide +kernel
theorem jS17_ok9 : row3 (10 ^ 67) (6 * 10 ^ 67) (10 ^ 64) jS17N 17 9 = true := by decide +kernel
theorem jS17_ok10 : row3 (10 ^ 67) (6 * 10 ^ 67) (10 ^ 64) jS17N 17 10 = true := by decide +kernel
theorem jS17_ok11 : row3 (10 ^ 67) (6 * 10 ^ 67) (10 ^ 64) jS17N 17 11 = true := by decide +kernel
theorem jS17_ok12 : row3 (10 ^ 67) (6 * 10 ^ 67) (10 ^ 64) jS17N 17 12 = true := by decide +kernel
theorem jS17_ok13 : row3 (10 ^ 67) (6 * 10 ^ 67) (10 ^ 64) jS17N 17 13 = true := by decide +kernel
theorem jS17_ok14 : row3 (10 ^ 67) (6 * 10 ^ 67) (10 ^ 64) jS17N 17 14 = true := by decide +kernel
theorem jS17_ok15 : row3 (10 ^ 67) (6 * 10 ^ 67) (10 ^ 64) jS17N 17 15 = true := by decide +kernel
theorem jS17_ok16 : row3 (10 ^ 67) (6 * 10 ^ 67) (10 ^ 64) jS17N 17 16 = true := by decide +kernel
theorem jS17_ok17 : row3 (10 ^ 67) (6 * 10 ^ 67) (10 ^ 64) jS17N 17 17 = true := by decide +kernel
theorem jS17_ok : all3 (10 ^ 67) (6 * 10 ^ 67) (10 ^ 64) jS17N 17 = true := by
  unfold all3; rw [allBelow_iff]; intro i hi
  match i, hi with
  | 0, _ => exact jS17_ok0
  | 1, _ => exact jS17_ok1
  | 2, _ => exact jS17_ok2
  | 3, _ => exact jS17_ok3
  | 4, _ => exact jS17_ok4
  | 5, _ => exact jS17_ok5
  | 6, _ => exact jS17_ok6
  | 7, _ => exact jS17_ok7
  | 8, _ => exact jS17_ok8
  | 9, _ => exact jS17_ok9
  | 10, _ => exact jS17_ok10
  | 11, _ => exact jS17_ok11
  | 12, _ => exact jS17_ok12
  | 13, _ => exact jS17_ok13
  | 14, _ => exact jS17_ok14
  | 15, _ => exact jS17_ok15
  | 16, _ => exact jS17_ok16
  | 17, _ => exact jS17_ok17
  | i + 18, h => exact absurd h (by omega)

def jS18N : List Pt3 := [
  ⟨nat_lit 16832742657623064203551260454517131479539838588791557629027865880000, nat_lit 71714671888162889587058805417846981781654197398625659945300923410000, nat_lit 10242252908004361258644028004147066733822712120481452215269210610000, nat_lit 224353863927839787672185077644544432091758332566897423264304603900⟩,
  ⟨nat_lit 5266038509331212645661479847035036380208334999152526585014452828000, nat_lit 5428763316419117151683958645372235026865855710923318502541249857000, nat_lit 52887893287317752183272525479536977996724810915871989726671184270000, nat_lit 315276252008773712585220127951901829794348811875017085418410670300⟩,
  ⟨nat_lit 26801798861193845948528205951918817692031770688249471246451518060000, nat_lit 3315362849402530892768019844555446794633222560573181806364736508000, nat_lit 42717185439952948414760310495880943355646877985733333469376799190000, nat_lit 549420154301268179957300304833619370518443523785138474761372290500⟩,
  ⟨nat_lit 1165202882194916982019457716901483654581558533115358038589028817000, nat_lit 57785057412227455389348490735556128762390015799825522593914481430000, nat_lit 39769290147660248343147431572706513030436515799721399110460240870000, nat_lit 90319354737214401654369833712797753831429620594740901543562989700⟩,
  ⟨nat_lit 14267242373680546844672103696662339737732582177997698217518166420000, nat_lit 83647180611687050168578453094431860615137506713158542413367315560000, nat_lit 1943720803609089192546569661515975443496230277075040843101403712000, nat_lit 32350386188984322521520270216432605749065700550361498927867275490⟩,
  ⟨nat_lit 37474745101173916622463442317479418444763024955219643930151610550000, nat_lit 4506996395394777022975348710302292910821963391639834954575239190000, nat_lit 4565181423884463894729209243736746130218321950173868589008409009000, nat_lit 322726755500117549820118528622961561180098108554360480499983828900⟩,
  ⟨nat_lit 12594158959667299271882323406282777166794071405802052982507672800000, nat_lit 23649834836018967773278756328144159374223087761790880302561804450000, nat_lit 44769638053832698565064606065949218598302815358614560102127663820000, nat_lit 724831072742828296653937072872834439520183589462234035378468344700⟩,
  ⟨nat_lit 4391468784706396217086960975693195393149891031272696884150697284000, nat_lit 46847340117673747485775484163510526902435993370112913993470779230000, nat_lit 3382073302117223652523182801555526738013952157152067644652584356000, nat_lit 232735214597561476104802342606639221036247569219623918116672229800⟩,
  ⟨nat_lit 27591499483854160003159202276735764098939423927343807853987570820000, nat_lit 44146054779238067763557259503569358044445579832821658473430246260000, nat_lit 495998462268941836368985511992188296081982206110046572787463492400, nat_lit 180989927649626990614948975219444004415222749639073180189285547000⟩,
  ⟨nat_lit 4448794497331236321575079676016446023159122246667167702958761595000, nat_lit 18437597042382283824444986441355687987676437414897466123824809420000, nat_lit 71235877372478057622177857206585116860942149742659125360043361710000, nat_lit 271878133323478680416839754543953878630593164967150296909970145500⟩,
  ⟨nat_lit 15210745539335105461046754183251918364813535473796011940510024710000, nat_lit 3276660990660724077700029068548025969295877900316222194105197970, nat_lit 69840232704399664926747458408289889883318026714061284460267497130000, nat_lit 86933153738552144260889685769296811548313999279121620441654479190⟩,
  ⟨nat_lit 52837614112003805129166549219846401973894099087497536835690548260000, nat_lit 17966550920655803679061591156539674754332754106818629701078038280000, nat_lit 1555652934607857660859631905252063772060683093651360239093189622000, nat_lit 331945869698556920756752396986711517249531929992289428761757002400⟩,
  ⟨nat_lit 15589149253241673686167218349905315414192722549833569434788400150000, nat_lit 28337300990737124608966241910631183162076322238321198351724052970000, nat_lit 477123125769339944601662134265209518656703341607866359166101587200, nat_lit 154801065462215379168307315942325650455936150139597716514676880200⟩,
  ⟨nat_lit 50638106740388698227077428005108384820429493392442501840462184510000, nat_lit 18255345573759218242161021702247793571679059276267215394409578410000, nat_lit 23344719382889755926684174258464159383573358094191660919974274640000, nat_lit 661124326716481398307392233352888255724451056840460169406609978000⟩,
  ⟨nat_lit 35769058604570694393767736011367867418318222439616484788914207190000, nat_lit 32386561179747992320477846835290291046729328308462387992414218380000, nat_lit 2723849630498044841977181844497415760148808885680695075510939027000, nat_lit 286093102363152311884271894058359733519820328145617863705959683700⟩,
  ⟨nat_lit 58414209148566652442093291323265765971933332865839865376791201760000, nat_lit 254070497894698110566597393784421171184629532010559750951197239100, nat_lit 13989926176327889869090334111752037426961504894682639788234463700000, nat_lit 121087117910816403711642794282504417339472776567938921683170574600⟩,
  ⟨nat_lit 4651593971018430711908292596877100804203921752076837859523945196000, nat_lit 58222749978462568110588334286957147531577044024084877955760427620000, nat_lit 388453966162031400527358466941576178462733608409657098039479239600, nat_lit 84769493584016053167699580686227033083634986296907521584507478110⟩,
  ⟨nat_lit 1293390119103585710413331682557735136787203359804015571462361598000, nat_lit 1616029484666579051559983208128314627661047814324368891634663240000, nat_lit 64568823013975765733203827648087919540851887717729004001787080220000, nat_lit 109043000755847108495116598066120943734672558120334511318145432200⟩,
  ⟨nat_lit 25981877872621185343606341421674648422285209582183968710733486690000, nat_lit 1983569782351146555955010468054790596595070284668219399354573041000, nat_lit 56495303029241519256187657733518320389515640955889587885779518990000, nat_lit 410299959931965745198835494409535386073489847873576119480334597000⟩,
  ⟨nat_lit 67336258915576316283913646716597231971717367356801229025081552530000, nat_lit 14201158554528789439320897687257056351009638294855848807898656300000, nat_lit 6714301236270326690975595591888301775990299820468891620557889858000, nat_lit 466808680541412265691777051974444696582974334079772005316556903500⟩,
  ⟨nat_lit 3341382571277493573853455331039370214853501515921994327328010996000, nat_lit 1953408909878516301306542717048343162549353275010341192725724100000, nat_lit 91752070955201488793269778963732734793967553929529057953113604450000, nat_lit 66666012871812361054164553285022398403491840646667454794555342950⟩,
  ⟨nat_lit 14125533487918730887891570487250830713297390647302704647945261450000, nat_lit 12112719486773183879668938948111581659438264290580116464796500800000, nat_lit 49200200588988675818712361179453163943429733718377670333072247880000, nat_lit 725222789793623268204216375507922230422064992829504050775102043400⟩,
  ⟨nat_lit 1031938932563166926889663140042736717394612060991829233727471837000, nat_lit 26739451350198373885074085697990609300461868518036334238065675430000, nat_lit 29023514307924131803934483248861684674487633110657278622859168620000, nat_lit 315351171727386400249617002311484781326782448315359141284840069300⟩,
  ⟨nat_lit 44272123542856025765759600356904124397859445579672167999702076990000, nat_lit 9464234866912460918671189975536445261605941202116360034528257569000, nat_lit 42238348348279994130731408809478262538740601296817011758172214260000, nat_lit 443352249240344529639479303583906659201783328193994878444739517800⟩,
  ⟨nat_lit 76665143760716954057088993643548270588470076021228202362841315970000, nat_lit 14846230664462192289461752897311696691631568086326203507628759820000, nat_lit 7455996577890362949540031155908187939162734666193027067817253444000, nat_lit 143157169557290996146511154108345820869358981618549950699683453300⟩,
  ⟨nat_lit 24398869788945070168575568257431740692187241035156008630560241730000, nat_lit 46482171202927466066626138030501611379890393403054400273112459120000, nat_lit 4413225846600323241170936343079100312371332081729803534850192544000, nat_lit 550446861762361294307246410923793836591605559071285318754953058100⟩,
  ⟨nat_lit 100363736756559214352428606665601506823716479806324505316344683300, nat_lit 95454711980346190139341249180101827085681666735784910582450411710000, nat_lit 3867152232045123764106955879700346951322509988305194436254167609000, nat_lit 9012230550226578233849772690183739533420364576949834920746453874⟩,
  ⟨nat_lit 14885050518574112089855315934978910437292179998628909236429459110000, nat_lit 30021050440970187368458768673986163365229496612336046307607523890000, nat_lit 11491686566829112915556587994802615225748421120915268642583497040000, nat_lit 780037920828477043832505215402002820681813534002110408031373209400⟩,
  ⟨nat_lit 1093614426297327396231730315770394018659378214449360435979748679000, nat_lit 14496998613760294898216532725794934965356695657752196028546389660000, nat_lit 39983211167659779261514560865061832536547386705959932953353648700000, nat_lit 216473913991884536127381138577256800409749171612243338858115428400⟩,
  ⟨nat_lit 33788813141752498848671694233395570488105499111091457674829727810000, nat_lit 686051962398663024619334160675060553512555958192560009210272048000, nat_lit 8667118313011621480520118195305198987623560004637229206136833769000, nat_lit 158342257751677841312334856042093525791318773223270610507339541500⟩,
  ⟨nat_lit 1201076738213312712004065881667090609646567471696298022679654846000, nat_lit 41074026059532611191048518625741547222982965462800977410248612460000, nat_lit 29044269726063926425206411126951500265701481310409713667683102420000, nat_lit 326367619226965579399451133604231678437461647070279113221907496500⟩,
  ⟨nat_lit 6035880315685298798925060394830654225939153270312702633335798668000, nat_lit 13315973763352794968776096119684457720702542932628698945080495880000, nat_lit 42849587119209835625935603372142842303910863751527518667261821850000, nat_lit 478878879601257257277974173013592431646231375237311897189302230000⟩,
  ⟨nat_lit 67880450799199699735102558292747893154523954017656196153621860190000, nat_lit 9483813233351527975103184254105581249010624185435362744266502288000, nat_lit 2696003856520882185677478146432447085094195898460253764394950071000, nat_lit 246387225702911955672915510203433554146365338472081828215637325600⟩,
  ⟨nat_lit 11580212629973574908854327552219319802472922297707662261621859840000, nat_lit 75722210153332397651247680664320127302896066293062598941257902640000, nat_lit 756021595418377729952591809956937323160619863820055369615604204200, nat_lit 135442194368736545621126711328803704832457824102026241873824961400⟩,
  ⟨nat_lit 19477163356872689330845973319648357325656888809585696347113567520000, nat_lit 8089551462428246111458576877807746209789459256619444209503695487000, nat_lit 57597090625175912109912881723004646862174195661049105160352693280000, nat_lit 524239875702285456945845244555273208397987559323918557212032645100⟩,
  ⟨nat_lit 17333229519280960170371799360237006471216566455683557835354252390000, nat_lit 59237574385388036018219406654637608916134396670162350054844760270000, nat_lit 21702872200229108863641936006971482447637422589108776243989496510000, nat_lit 322097091696756812051510683834973409159553134652062128827458042000⟩,
  ⟨nat_lit 7620309691093605142224981869846113574160678994661167120393477841000, nat_lit 1202700311291623289133454152548489266594399403879646401565643919000, nat_lit 50681221760470815002968837285306472339162614377139163874065594870000, nat_lit 221183383325051882370445694315064510205900508828857792855508363600⟩,
  ⟨nat_lit 19386131652379631626651564284543317657925378133858931944570673500000, nat_lit 3308920686064219452589015838682007796796071408694021202934435979, nat_lit 714399125684919928930094333568667542586396382614438068681567833000, nat_lit 18184313236470965064140741406248732627605345541616053765820415580⟩,
  ⟨nat_lit 78821031451982798827780624250578197441296582159747974216076936780000, nat_lit 5822648792101907541242090883264749478301328761824740832814055056000, nat_lit 13736379719309192045027010060734692951227710433955366122285499350000, nat_lit 188168974612730259707912816976395439278590887647389666247966235300⟩,
  ⟨nat_lit 36976867953456507917611952768206630519344388433910106621079750330000, nat_lit 43543600795377725518769857937821998300802280504955003907425258580000, nat_lit 15041090534096997829319912223406451204069201981596698960030521580000, nat_lit 408046623636352606245861891633009693511022298531526445172088290600⟩,
  ⟨nat_lit 20148130622778287214086129504669248075578727638638399524146071880000, nat_lit 38480841963907870492112948164665325390168535616665785012277194670000, nat_lit 1072996519325078488711670103043246799517936059232878379054736935000, nat_lit 231895414913379043206076344945343818574838739382485050112035982200⟩,
  ⟨nat_lit 23068299549120679298067414032733592930085778776058028841550963260000, nat_lit 72418733560752892875692864278957632228529480752818434721943837770000, nat_lit 3108725097953924936028793958312036220019346600678943321832875591000, nat_lit 111560141120788643886580274443480113097270207776777212233910225700⟩,
  ⟨nat_lit 40930269258678832804147405976270659660643423041926173703239600380000, nat_lit 14165059322961437384321600274240884775306835951859397638160343110000, nat_lit 34773360018748009223863257502005387905177205456591867420880510950000, nat_lit 564686002727770256409120749965477939435978281013450254871968889200⟩,
  ⟨nat_lit 1028375333586873834208625179106278764657530362514596930143289966000, nat_lit 26293154511996597163804493618159290100871925218821026655901113100000, nat_lit 56738545810281868513709600866542678303333581173055928987433365400000, nat_lit 236917615393805454427976733664397689468254006888827600445263037800⟩,
  ⟨nat_lit 6762637155006784859476471304192931215550824296765133532579536816000, nat_lit 23765196489050462527100795152051934905598412593424624320854529480000, nat_lit 58599298384298540001815682809910981678141713984574302799436833180000, nat_lit 494720438743913477511653656244517303075857154741542001692493219500⟩,
  ⟨nat_lit 31063650660967046521577969409429041981285304366886378508302464170000, nat_lit 9903725092095204783636775271773909982489520135316258719225483348000, nat_lit 1313054652798026680026120070606125355685221620440668951920318599000, nat_lit 212997792288112182362025829144141529125510819269958488040601484000⟩,
  ⟨nat_lit 27488042233657958324543574347107954180326846043533993387079923160000, nat_lit 20825272814892105893485804152976793575879567777819205334994997160000, nat_lit 21281320256023440048964559940997230241679705426163481294745834610000, nat_lit 968779082718803359201959179993024340229722474382344554482299724400⟩,
  ⟨nat_lit 2976550230377661902321779771373407185846155761035135051491585724000, nat_lit 4527850794061827004534462806802482608317151016172883011457238632000, nat_lit 9661501007009479333730069155988890725706696354122910871233536422000, nat_lit 171805569180573503638074565274083412514595928506838190247821912600⟩,
  ⟨nat_lit 1599813960903710268664202475575657460691990328111466067603244185000, nat_lit 72003782304581228929800014358319820799208961547177970687306668000000, nat_lit 25293190646607127363723111682987735717983913218050889249231495180000, nat_lit 94330977835576595864150754172466456216812411882524348636947731590⟩,
  ⟨nat_lit 36533446888787196704617387259518357669998433838370765157380738590000, nat_lit 22169652977124331829299206575902308503666768902234137717836742360000, nat_lit 24234070990027751089547326458540649498099089311345182765924042000000, nat_lit 992303031091021918241109726654019559919008719855067367666247670600⟩,
  ⟨nat_lit 58355021797316317351778304875147994633542811126735895492440864750000, nat_lit 34173235516702832581617306347970601322596443010624290016267716870000, nat_lit 4193849995583609262669007956511747410911860319970034245250189611000, nat_lit 226923070939717994275335124949145385669366056100762299450737767700⟩,
  ⟨nat_lit 47527624386227594368232155778456242402434670368651225754618100090000, nat_lit 10957829047768872642520275150018161650289114971339183446905404380000, nat_lit 17721619700870902722291522062434717860106162491382652266475840800000, nat_lit 594767569882254833848742750014168517914529578743022374271812335100⟩,
  ⟨nat_lit 39713930195215122539750593799659437944823157405357402117006392620000, nat_lit 22166045157747554742114272109377398580868099104283186919651151570000, nat_lit 12605018701695692608084588520102269047443118023124142951777100090000, nat_lit 862842997868392333874964580495808692706721620128476816076064119900⟩,
  ⟨nat_lit 28966671206368693596686322099209762629840689297086128313559194780000, nat_lit 32503347293428357768237247291229910504841388150632042669410893040000, nat_lit 29692150246891634218626864390431830110681409167684805340426367910000, nat_lit 602907520323122154860334247635971525249198847116922050769812561100⟩,
  ⟨nat_lit 1027311928513874604036425707071115772807009445908744325836281296000, nat_lit 46005217062905251084947388698550090929126869359239065308191965720000, nat_lit 945264494705799725348097581940556423121561490919508410715816103600, nat_lit 57225981424211294231798318227013294723498075173636839778480023140⟩,
  ⟨nat_lit 258178314325283980112620348881281063150594065614600169251951044300, nat_lit 1577751581877196053621535143039875960062441184697566306273790762000, nat_lit 4199394161663546827460277039180312255352938143265855275950291747000, nat_lit 19601025583356771626470834162455350259077957654170162877997727130⟩,
  ⟨nat_lit 25577529124985820892151604114727905366023137379108247041455625410000, nat_lit 18455116395499074644708049827824634371170859789119269158740207110000, nat_lit 2855711984147401125310117124031434608364454043028888962520686574000, nat_lit 353080052131815844881237017442459549349146164145100020771507292400⟩,
  ⟨nat_lit 23945092957001342342192221413011352951143163592491749175275497220000, nat_lit 6598899407816204739961260536114460059084497236487537333353599263000, nat_lit 63334014641585644761065102424898775233655254801339740787374721610000, nat_lit 381722745346626422966088770621211949354431228353555036640716021800⟩,
  ⟨nat_lit 894949734662235413410274723452642959938580397614888437565125547600, nat_lit 21580716148605157075434008231728997973665589024946726832738360020000, nat_lit 7353927276508041151709067666005811223185895394047278126777815134000, nat_lit 173830977655304357978620369568645755847440189553420520964780606800⟩,
  ⟨nat_lit 90274322532157971015284666282401475379952081702240297292865974720000, nat_lit 1030478734091108176703762568946142802399865533531102982161507613000, nat_lit 843617190651235821396311357375250304024338986457009761965920747100, nat_lit 34221592528521783612557884876925752778600179989119878664970056620⟩,
  ⟨nat_lit 731731642318488577741802174997300715243816021292211211206060258300, nat_lit 1651340045699001106881533441336937464072879335444879667626860887000, nat_lit 35229827212975376697232731843392389953891644821907361881515037020000, nat_lit 77575889470809697820143816379178843479679151783872090801746743620⟩,
  ⟨nat_lit 21949376852330653313294785532399817075408498584540460318423160690000, nat_lit 7149978512728677097796438629175169670812903933889062844336847325000, nat_lit 4949805469575916740415134846883149349562021164117865491100330283000, nat_lit 368574119721376992168359983523626171292502330079809202998080318800⟩,
  ⟨nat_lit 35897151092676789452426412850995069281052410479655385980812008480000, nat_lit 36950113765426129355098352200320462805629352377340468136536792510000, nat_lit 13590003340945542899224948950422567521909125835357567048306723610000, nat_lit 883528345966065926167624997073409461836188342633985877016606995500⟩,
  ⟨nat_lit 5003765921256834635955429098207692155642501205954735006723394099000, nat_lit 43380401450411797084992921969239980621227169600433675815364341490000, nat_lit 50909159663204773483010731295923168489452478726422596192481920760000, nat_lit 131254543111446943142799150917812705812594831561944531864884321000⟩,
  ⟨nat_lit 49717925986837154090598833074949034757548264860438617672234670700000, nat_lit 103701767587336433343989380782622024285820790597211163462691565600, nat_lit 42217253230536957017634016127741229742514626725516393306446351570000, nat_lit 85944066254058316737883661726598362114894708878046856920632016700⟩,
  ⟨nat_lit 50362412108005403627443969893858575543124638906473417673287830880000, nat_lit 42102157567985548841137768471806360426238424573915616777293703990000, nat_lit 937946515479122829472516444184923928454578862976682160716313295100, nat_lit 182165841738474732933935337840642762395067372765136477175688808500⟩,
  ⟨nat_lit 51825240901674495263996492558205640804354789444211009901551547850000, nat_lit 15728288049488339698856460953935531978385071321467826849209960220000, nat_lit 30261126030245304650784392223392120003466513964004329743261238800000, nat_lit 295934650540107167511997808706613993605029328605227795152901762700⟩,
  ⟨nat_lit 21676331844240103897410686399798080448560687193134737988725238220000, nat_lit 28487613678171937536016098792182621091680437865756215893186063870000, nat_lit 44360935355368254908372324819773062714651865046892155373016014130000, nat_lit 569954784198948134940560947041408480194787039858277544285482185800⟩,
  ⟨nat_lit 37398915400289776889441600662010054999438552289646873640090058770000, nat_lit 10875276032421013232202268789554827783220754437881082746140572510000, nat_lit 16068928675982329319292529366328203550046406013164185695715081720000, nat_lit 769479833879677982076366512058013774573042437358409901919911791300⟩,
  ⟨nat_lit 15791293411938753493024531986447732418674510745418066781270897210000, nat_lit 31023826273231377320660553592606729486437306933825540973455642600000, nat_lit 20304097194554892043611916501272391388628661230457711275486810810000, nat_lit 615693018492167551772677703590633622134085186759577771517659286400⟩,
  ⟨nat_lit 1440757932619585339022562823990222193165359730965720992113471570000, nat_lit 32078244024343139304202389622081646177516049673312376601236798990000, nat_lit 59225225382889348145432692872996583663697828098238192742968420540000, nat_lit 217867115600965581944892191804048967129211566555612945372755441900⟩,
  ⟨nat_lit 17570611757049140440597032880363179461390728776230594313768869230000, nat_lit 33908434531755670110052833125092296452645283252126317585247412540000, nat_lit 34341543099392186014258436867303036882978732323543195768626065040000, nat_lit 697959884750680308413973000339851808737643853988258477399996696000⟩,
  ⟨nat_lit 7041812668575839313630159605443448529817770534180568235586288116000, nat_lit 86316446154789879440792484594818969741949016933548851244121374950000, nat_lit 6126077285216001531918515358823242662595455892656639798888669581000, nat_lit 58858785223255457819817897407453365604314892238818201136296905390⟩,
  ⟨nat_lit 19896094687069572973407542726870465070932812026524148877525716460000, nat_lit 7068218663778228992258450345399983509750914193030508134312190645000, nat_lit 71878712655294619502442441647033033548194286926558378433408983560000, nat_lit 189221430832754951373904256208612128932709237166913624290812240100⟩,
  ⟨nat_lit 41033746094505814245589039326866482081063606495092915224069566480000, nat_lit 56076957029115643071491362325992524685553864277951679781650907490000, nat_lit 1484192203561482254841811552887620723523728169816538731714525336000, nat_lit 109115607262995386317454508737107477280722262120387247473786873900⟩,
  ⟨nat_lit 5103047231540017854788919604311936877461436160194871105189761995000, nat_lit 77862608340782464934698125553983901214224573370403089434658738410000, nat_lit 9377910195644077162791290257924193057174095941591833992858874368000, nat_lit 237752713739217362778650902065956988399684860597268675166723029500⟩,
  ⟨nat_lit 66228757431339528809633404326931294442197021946298497706635132650000, nat_lit 15310858571923508149225192546409253775572306983888426695535015440000, nat_lit 14116243357789218137955962733491836446337963610133372390582354900000, nat_lit 468335110229981355720997055972981732405551567951058724780898461500⟩,
  ⟨nat_lit 88304696380293663780198862760748009043212373553737871748741608670000, nat_lit 6305154813726116497493804501060444903768773306226331774866962467000, nat_lit 4464892280640127853759603264890566088120683157944481948530046685000, nat_lit 70327345172166525447379564962210901959591641911792342950363516100⟩,
  ⟨nat_lit 15004793700375701745363613491098602114377149502947376366226987340000, nat_lit 4212193944984947791504070482688281202202134635196409834049440416000, nat_lit 23443281702062883003216632564250282433042342343787968016479711280000, nat_lit 362310282974481439536127992188480096982796095269419464156701164800⟩,
  ⟨nat_lit 14294814822904159087100172557027248374743406960928586949892346930000, nat_lit 45286074063104131923126395655746475134216165441766772214288888710000, nat_lit 6707878576264771119538749407168971496192531021943398801086933162000, nat_lit 629327504834872888089928554008682880402650691820330866970520797300⟩,
  ⟨nat_lit 2612842438936695591007764575408103207489358859914835511746385847000, nat_lit 3439423632156479538020046176114795164315889062580526704594028278000, nat_lit 1855844212803777350980511889833820869682677485243229055152252064000, nat_lit 61363182792914102144350175611254353924239315068012609894322326620⟩,
  ⟨nat_lit 8739836318247893298949043115501212996141921298621355099644089130000, nat_lit 45075684817561168740248677123539347482353992379260124255666258330000, nat_lit 36520103248237704275338083449822476706622025823729816501178859020000, nat_lit 494177705533662292610891990003601949161881664105491757039437937300⟩,
  ⟨nat_lit 13053521184194068457839000013622278709258979445054848556518483980000, nat_lit 24619180705177719436676596887410205809021363579064046168299356550000, nat_lit 58574097589365166104630077076985333053218503267835031693864612060000, nat_lit 420459309181508134761148653271902275165148274700874735167137104700⟩,
  ⟨nat_lit 25549419548617846786687998925768574672222778595066238426339879800000, nat_lit 5555225520412402035355917499587085774105665915132233076653047861000, nat_lit 12899518773131609847866317389796470860343576627584076510789466800000, nat_lit 513058320608199233264824729189834181697742298461212270274296399600⟩,
  ⟨nat_lit 6938399285669665517769655852086733802332275336245434113715319994000, nat_lit 21766489022139575986304938272444782733999444924828221093174662710000, nat_lit 1230994324437459559566419106787628076763843724742678335891427840000, nat_lit 202300986227431275301659362234359139826140837303103490756083555100⟩,
  ⟨nat_lit 15006405329168309772433888336841821015769163830065077297760246600000, nat_lit 58722877524743948929999685096172626249037886937596864605886213310000, nat_lit 1348599431720181223942657183131653108380020521358908299568866113000, nat_lit 290745520233992570043056093277453910947783159026102269393078554600⟩,
  ⟨nat_lit 11332569639126072944339466037198685701060181209622581108910461590000, nat_lit 86090083472442620305828747079616394218501112234030191184292533200000, nat_lit 9469920757928326683137171954536771903215975824102498015686454670, nat_lit 32498412889643593398233418863242422195782768781100990411051693840⟩,
  ⟨nat_lit 70651577000076236844704222531471019430692716819897834518250398180000, nat_lit 20736098808821750459996507983300295216795828944048516111573996160000, nat_lit 4354749357285785589718852066185575921758804292704087257225479204000, nat_lit 238068814181330020515953301341216649827576917336390525833114918800⟩,
  ⟨nat_lit 34620523874559262499342483057796610515156883918548809315743830080000, nat_lit 7343070548396231683697326352366592892022871676585932016290964750000, nat_lit 56930594091626425372690144087967978532536420252950443959978472220000, nat_lit 221366331597031320809440729677849909954641942621790020735771591000⟩,
  ⟨nat_lit 4634484652786028214148727368199197693840587927808074364809491738000, nat_lit 5667891276456391410111860970608599023629449191742488857771807919000, nat_lit 67247319361091605996719237905126096187974932387025077427865949030000, nat_lit 295858688764570185611883175532046263537241328610021264021409413600⟩,
  ⟨nat_lit 1265974507647292981328853236975456684232623137184511085184023915000, nat_lit 30925503757522824630284967306584156436506189421777609253057580120000, nat_lit 1455976510401633782567561611302965549750849863136971611488652316000, nat_lit 103762689226946918311757319757425939941553458742138724541320751500⟩,
  ⟨nat_lit 37875125518462078507203343554299791374415989633851310386264447390000, nat_lit 45047956231602876973139953058598859605042884236511422235460135740000, nat_lit 1268366089512246068993185801487537244198235226192563650041846615000, nat_lit 307566232684741057233360623726495012553027247330279666786083390300⟩,
  ⟨nat_lit 24532016549357579785041885982918014433452785139151848503077669860000, nat_lit 34538746446714023873541903127087080964312679246310793091079418750000, nat_lit 22601835365611629985588315447187063410587998584222895826935432660000, nat_lit 964272491967239723187578061675333837626736299196187638210815774300⟩,
  ⟨nat_lit 67804065247047287870721195105946893621055230546116549538196530230000, nat_lit 4036339333587550814309997147033470912390397976758777050590479059000, nat_lit 27339917160471124852769422940746826170598432325016046007294147420000, nat_lit 105466000916403045679560932040678295535769582531775715546494558100⟩,
  ⟨nat_lit 36491631554062294090124246877737706074214763594214092908078514130000, nat_lit 17273110763391114854582886927723077254587298139901548808626358070000, nat_lit 45426587710059153678712700950665812074247875142551886941153082530000, nat_lit 229355514497309590866821779227493397904114240855787336076204495900⟩,
  ⟨nat_lit 966119500057717080286995553610902460016998158558658871281072937000, nat_lit 46289628422982558717214295673484745991566744141355060778409732550000, nat_lit 44965809423298421967154501176709626751933551728724332175808121730000, nat_lit 180771975303385453490487506516566384757500350718137271166529982900⟩,
  ⟨nat_lit 1117764625580903937644893026034686193492385357455321480471704594000, nat_lit 30495792375757281946711489559583143486938694261491672591758617310000, nat_lit 67277870829265842299286528803980635590077897466541390400277270040000, nat_lit 64426244282067567200409953689402159888775292833555848116068820670⟩,
  ⟨nat_lit 2587951084428033498843629290827373762319214937000580597700809371000, nat_lit 10842149276459438935505575438630982795596287555968932061060666200000, nat_lit 3705076361435993070386841169755255550236326872155393051744829580000, nat_lit 128167389815911668143494567112807300728167343813255499884978018700⟩,
  ⟨nat_lit 18578964583351990825114477883606725962842131808575459011133371690000, nat_lit 1223370834204710169651045595392403431293960014051363559811955543000, nat_lit 12839108174274219743993244048994749564226936698374907922700345250000, nat_lit 214153917672719104316400844199121093903080310963426291241121076600⟩,
  ⟨nat_lit 47912505461414652684568294188871851343194544544290854482610219640000, nat_lit 2762557992462347825372891334665684557279403928939969257670801075, nat_lit 27783330581188510965490117615391260460473262072794678181021456430000, nat_lit 104802608885891360535762421809000292522564838937614904149806141600⟩,
  ⟨nat_lit 71149231598744536008433842036478864489289809088487824929722494510000, nat_lit 877804034667109306827442296852798077769169583847103767211302188400, nat_lit 13906685602071975514986383223784602915386227813063184364552527610000, nat_lit 180906562409994987849917909757145399214371487636715141244469018800⟩,
  ⟨nat_lit 27643611003256476231012683437635117117107186004811072615753201260000, nat_lit 14686628020138440458443313124102686645910882946113589933251673350000, nat_lit 52279646426533515956944076163865343868200803817987835037251598880000, nat_lit 559771194723618080424568826850428148276176849170995795290759062400⟩,
  ⟨nat_lit 41176833218473290629716822616604581171203245227185168202817051710000, nat_lit 3562219342945575277294038401303800275409070565262443411755402368000, nat_lit 33405546195778840814388254585993539795900156830748555420509290660000, nat_lit 449112460517381405286116476595513307108450474873271248257433926400⟩,
  ⟨nat_lit 496273931754286150497545771511032782890980668964727682817761433300, nat_lit 21387601250127452098179418706242937654027503202575433719661980840000, nat_lit 73152439713052416533406606609318583674421022560077466413890474750000, nat_lit 81245392993514525751634954962236221528232682700530926223070102100⟩,
  ⟨nat_lit 47782570037203224031227791737392793298334489929915532116867816940000, nat_lit 4409174254205472177909316707571547343236748716684491670395575948000, nat_lit 802539183525979404355200406008693767600780443465294953035641900500, nat_lit 130336219783636527469371730148243248869398264830966794001269622600⟩,
  ⟨nat_lit 54595383082583884751886164229959580471372527464503943565709803720000, nat_lit 24315257656421389261976519865258198679707099022689034231663603320000, nat_lit 19553254286668939054561736192503154400639837171673563359722523960000, nat_lit 298004025758143801652830827295010478141033983595664998723090931300⟩,
  ⟨nat_lit 1299679339383472176873638602537188035229425524608797040581532836000, nat_lit 5593472818460970898587630836093475833639366739011403187853996688000, nat_lit 45977100305923165451645461438285335150767906673615498656281457130000, nat_lit 208904827464106094217281706044059356897712279165990396834222646300⟩,
  ⟨nat_lit 8088381364344342802230456975821932813334531334549498775649736544000, nat_lit 11328578905358192616285081863830949769762409447210283178854079040000, nat_lit 65982759394993284480420345631934742712744833012152187453413470260000, nat_lit 534587456315071010528689256931788207129558216142520284706123418000⟩,
  ⟨nat_lit 43452209825099937845163850366484309799684687267000220469629320830000, nat_lit 566045971229990066404138094299038175964024377328009644269571754200, nat_lit 1437958837923919808263371456421369183063067251637931905373031969000, nat_lit 63385981623186415936461426714179574130232306839977895104626804850⟩,
  ⟨nat_lit 40035909657636763782566466022015993415667565670476510705412228720000, nat_lit 48187165754983964471794749250025180424929200478580545988854169720000, nat_lit 6546076445124478133906873409039576903388595213331226502814035840000, nat_lit 391690883448792453267770749662073162009682676297927029280576250200⟩,
  ⟨nat_lit 14918714014656612009552996056275266090015546096482080938805267390000, nat_lit 15340559291316979395890686767545711581328144241835536861543831100000, nat_lit 11399072522797522098799192739657021382978284331020333224835115580000, nat_lit 676355427197733510104333509039387921000978741616601663801049090200⟩,
  ⟨nat_lit 12695624768537167028019508408584558036850896768081744094451597620000, nat_lit 12414199975512398927175278054033765327599389253184300927820629530000, nat_lit 69649896003472191852826448092029025717463456666024083395000087980000, nat_lit 433263587864446644983380608786376894826972385488773925467206509400⟩,
  ⟨nat_lit 15843120820254329375581776650715286888224851610809371707966343160000, nat_lit 1244900519031287328480836310509996966001727686356036297427765603000, nat_lit 81774487970193839751772095379938800954003848676892178053134854360000, nat_lit 67613466582094204113258621253789974100727975491234565812025790870⟩,
  ⟨nat_lit 1225144649859458909445502650242820976771520193593098620541092225000, nat_lit 5659905266646685387081818749312332783675360832957862996675972105000, nat_lit 92066885665037440687581204811346601869125108769184716396395001480000, nat_lit 39023708810600023826084454472237416212596526708757997735118231950⟩,
  ⟨nat_lit 89213627135644177895869065773376281097533716673652692285754986660000, nat_lit 1455415599392187910851964409096161720031007416867203292770583270000, nat_lit 5036298614822620490207731446971523604341629487531358816816591828000, nat_lit 73694464525726058794404873835556238051596966218583254591873998910⟩,
  ⟨nat_lit 3431191820491977137277112955119828701703676008779347932178739709000, nat_lit 53620147897310960177354146971494075937560090705144408323760079230000, nat_lit 28440236695728004956147993399190020588264420197896065520872350800000, nat_lit 469629474475275888913983256382143285013578951751160047156642128700⟩,
  ⟨nat_lit 13158291375178765045408137611835989273432789574015834091335123420000, nat_lit 59465597935322110964286940262946969757500794443473168525223119440000, nat_lit 7252156912342061869303440571526397925249156542153838930531779570000, nat_lit 482586597576062332316044639712208165690065466800505699141674716900⟩,
  ⟨nat_lit 25475449063247175504953333501281901959871242922668811422509258000000, nat_lit 30420701466193290852167690388513905427266517829912912632554002040000, nat_lit 43057282204469927913512679496986934006780828743674348078797621940000, nat_lit 306731804206650061634583256706691524689067806554174660311896969400⟩,
  ⟨nat_lit 28691108178712330170098789950791982913751264040591600563247603940000, nat_lit 10157484095281160715951745489326967609769324755469604672455576190000, nat_lit 29461705233897877298968656662714672786265002810642161851345540940000, nat_lit 750206947978250070309707014453453300694190547938268035701653536100⟩,
  ⟨nat_lit 1048870102988506005848844659562576687971327454240857392943021943000, nat_lit 68088698604003463642360480942628744598685934345839659860655745620000, nat_lit 1548365491025583982483776899471050144868895781062976120637392799000, nat_lit 86214138780153583854475504317510325925175934636323848910394617430⟩,
  ⟨nat_lit 96235818960837766187169473645198720565555957036894857911689036500000, nat_lit 1028262774263544786652383162442157556694298677165857923505281894000, nat_lit 1412961496471768627364641464586838692414849816492071202882483705000, nat_lit 20181033329669048444427860301735159127516144101151312252569137520⟩,
  ⟨nat_lit 7697010520784840456687707391987493968862705001196010455237162816000, nat_lit 6532087871596312327436647836140699167527136760420007183527823798000, nat_lit 36048080937486738536467959791598047514299562511819380448188838190000, nat_lit 545062841628260318259833264248200017647541313710147184720805193100⟩,
  ⟨nat_lit 217980612429151319553193672774841802218103346149046323621286803800, nat_lit 600511238128746796168483750622544544693996115576376525546361988200, nat_lit 97752281097559175349509502543823335816728556908997771399834640720000, nat_lit 6570886469202407526774264153700501796774934792146146654389820716⟩,
  ⟨nat_lit 15717969049342892349021282538265796196671045717219630987373116110000, nat_lit 11655464105052121434869724981291803640901913948137223163866516130000, nat_lit 34554148646949768111442411099694533436761870068777046223828447090000, nat_lit 776603425376879776334878408794004737363026666818289977929379756900⟩,
  ⟨nat_lit 303587233335631332669785693800863605743160037866250830968563139400, nat_lit 93718609666903989279292550550024884647768302989506618174801589940000, nat_lit 785022280303261461502837677970513847707011356054661437019152197300, nat_lit 17069143904440344082179246672310701909421435997887133436425434400⟩,
  ⟨nat_lit 1427430041659973326210070499364928792494590960234438528186252712000, nat_lit 14662512442249369689285073880067533696879964957978420434012968530000, nat_lit 70976113781557296331561217916204281979474644994244849830070742610000, nat_lit 231874649343860849851310051908964970400082695118372051921574253000⟩,
  ⟨nat_lit 1591134675308319663608321645891194104730819067542453068843382137000, nat_lit 617851099890839724397120073853909007987773655503444765718944560600, nat_lit 89149222703268584158123426488436919801464418075784347827557654970000, nat_lit 31498078241713857487020757761834998865094293325885054154686956430⟩,
  ⟨nat_lit 488624995793156029326260096358600833249702976583595938249351826900, nat_lit 4021678597277656654612349024709758157395295310579614769092563531000, nat_lit 20694334414154614838572321610995839660231656058851768230314570850000, nat_lit 81159719546106621176231083725722975595926209156415569668395301370⟩,
  ⟨nat_lit 18521928867447192786823605019369773129867614307974072128279446760000, nat_lit 14658490766332937491751768905669963442392854215531275646829614520000, nat_lit 403531549043640687154485133087027948253637314430088965364589704900, nat_lit 130073666252619780302334958381799789776545233560142017941697442600⟩,
  ⟨nat_lit 21786608363241341219783085668372173844674512102035969918461030200000, nat_lit 17393613996877376080608800122582746305497640906841126404092961880000, nat_lit 59678752822240481549227215820182958387529733476275569070070646300000, nat_lit 278605403180428602721164498261317656780255077131517076737149866500⟩,
  ⟨nat_lit 13282847059321655611361170543978041978292109901296255295417286140000, nat_lit 42750291934118177157885312286834127447401087617977150074642615080000, nat_lit 41600841148671520001763657734918798956491884359154681349824339860000, nat_lit 407071946492510610038767902996116558190155305330273913532675180000⟩,
  ⟨nat_lit 52324183275301623084913045227545556840554828014146988140223919780000, nat_lit 4008153002248534897848847743595335965744010231835446077288508511000, nat_lit 11742051016863091665671626971313028124144789645865033758424057190000, nat_lit 451336317571412110901871659742245615491515572209154718724154456200⟩,
  ⟨nat_lit 46825525340356497620874749289703267759489407794529814056533847310000, nat_lit 37202961754366480067933105249788461655212371198600443873340627680000, nat_lit 5364048753954104599571010371852708723657729901973880579551569120000, nat_lit 464631901751451917598238805267326680354673973717973361826735557300⟩,
  ⟨nat_lit 70160452420010310638574323021049876258384481840687096038213402010000, nat_lit 27347274439245284199772564127786251877727652161889001317395649130000, nat_lit 2010868578470003374291254232899214009762908081559211061844468840000, nat_lit 63356431331518142504112845604290517073024616330025777432115653620⟩,
  ⟨nat_lit 80029566464489364274592968948886011763352919694027266186415118990000, nat_lit 8119332517974551140545175678520368708372453382230621890332241281000, nat_lit 6213692766424307476669865166890612441767393037031793078709050081000, nat_lit 236996473368823089386231797909893813953304561171744266947177341300⟩,
  ⟨nat_lit 13772189818291944163775652241093308350007659952229429421696338980000, nat_lit 1211814371876444702965240142129845909648687323751296950281023063000, nat_lit 4860434211092543534163410474950873948758981895877304048141099879000, nat_lit 122221397662512901268605187530308724893114425569340733532778112400⟩,
  ⟨nat_lit 43262681817562633065027426419534833336814298690040879797756071440000, nat_lit 39239227559271996135743281929425064701767781426249475413582636630000, nat_lit 16816287687993619178238513029864299276389422639352893582440588080000, nat_lit 195671992022569487695973370363964306391460844495452979089181188500⟩,
  ⟨nat_lit 17131576595037956806437572592873393537208063046484951865566661610000, nat_lit 17420890400854989656089495397223543927080083334264709311319292860000, nat_lit 54308159983889906671566304971037935375394114646406342705093826960000, nat_lit 690457993284445870475366176175516437393819607606812593907068426300⟩,
  ⟨nat_lit 888232221838744507422880743900708529285975128808989456064398153500, nat_lit 5699005050118285283550543428913799341717020158569108878190556175000, nat_lit 75716863540325688950354892395353526212447578243658739693543426920000, nat_lit 125252495008032890828659934595236907134692704477341998244066880800⟩,
  ⟨nat_lit 810823069853544991278097786476712833148113571333022038452782812300, nat_lit 80623275715067267254306611786830621479813517032280335821427373080000, nat_lit 14916660178130980275492136240450106724078179246375186113181616450000, nat_lit 95060997374811773959179891581556541907294064533857256358883754340⟩,
  ⟨nat_lit 25301703215338401827444549317099475081652653035251755406007703340000, nat_lit 920446737110388085542071909413207120075880291717080502803293582300, nat_lit 21333196572705407774791336958922973618574922457553623324486343390000, nat_lit 258314046179558958674809856473000739695960304112864013713907577700⟩,
  ⟨nat_lit 57364470837331067230877699631513053866872653964744774376103918810000, nat_lit 25551901609051998623341323342995156890940460957424629112638889980000, nat_lit 9221851630144358297715184378443222323772157490528552200210066010000, nat_lit 403971060703848294486101207802162013981258326385113743671400973000⟩,
  ⟨nat_lit 39919248411981621285958415610537002102619386366794887952580686400000, nat_lit 11014576710446233092710766921699677050860522115752375366804080690000, nat_lit 28544173531311951849970226524232867391302357168940961007804982400000, nat_lit 795584713288472998917413038911812784641082717202028603745107297400⟩,
  ⟨nat_lit 1116886671346468915523506120450943646588862045860745294242089535000, nat_lit 41802767219862389816893364039046278248770651006709544951881889570000, nat_lit 17297013158747398932047093762971962589657959391381724021299329180000, nat_lit 284643321126969491066340290560585245577297473182644249806347730700⟩,
  ⟨nat_lit 8996837858455338542724118662311674139539611826232543311453677501000, nat_lit 587356805711297341680658901902299689673825623984914969029480835000, nat_lit 85100171517003717163127688587367869425589250398976367033806584450000, nat_lit 73115983054180912534291507729206020048377235701047034115498311810⟩,
  ⟨nat_lit 81721181073639199671210288496850942596778054039701064434757032570000, nat_lit 1151485658204512249911455844836455782150560164591350148700233378000, nat_lit 12016380912166443423862253257608133506261410855330212554197750040000, nat_lit 113487052372044397223863800563595138249413248708264764460527190300⟩,
  ⟨nat_lit 1142554577253106674436291806686072883970096906604416816506934955000, nat_lit 57394146575630471057446755916729899634516908661441640477894874750000, nat_lit 17059547982048375030057435354455006733497129548086158180069532110000, nat_lit 272636272187673499146884275918101901729411382043559030347595276300⟩,
  ⟨nat_lit 70049901554935000440835312660596541956888851890360204454229240150000, nat_lit 3945845715566998318293556966543915449808690911655361639602171784000, nat_lit 1185236628020709223872643461390535528235279872502742433060782920000, nat_lit 104669708648772727300279077235092853651942121789475624531364919000⟩,
  ⟨nat_lit 6491908076385639236314536897849323971190660800476265060472701160000, nat_lit 777468303306476182059855808423037345235411920535556514784608629000, nat_lit 65943690761912552890926986462580194609094649536524972592140337420000, nat_lit 140817042096492509192416842212528139033480549703137673554878391100⟩,
  ⟨nat_lit 1282303219773133373375954592127372694188424869317055897512637673000, nat_lit 98347854020571198414678635704166799972864245532446396903995817600000, nat_lit 10532796740685961959068439738125419425513397423149558162182605400, nat_lit 2614544584193723153350920034683827692711586108622748462703367609⟩,
  ⟨nat_lit 7836634537404384130868856239937366505407959162835571632756164800000, nat_lit 1104294734741077993360720495007727926930794600415636555980377348000, nat_lit 13110706520751226621246954585439034922347425892966723993481651950000, nat_lit 153927566490519606025507489095653276487740184384450751426443983700⟩,
  ⟨nat_lit 53379741456839839505916872964865044260144411799754307861972489640000, nat_lit 7167910463831709868611368028280487436709428057275817115300983510000, nat_lit 28535127563085358823553440814073529382931542310483827349806007030000, nat_lit 608106773340110254851313460746971974763683947998686071021648613300⟩,
  ⟨nat_lit 1367109199423635340638762295613115290180022217752523559332735242000, nat_lit 16498407162511600498968030049804457100237875994624131538459970080000, nat_lit 48133252949497785254168849228996910415675639228608446744396695580000, nat_lit 201669502259995080717169312213237493922380074727752595660361825800⟩,
  ⟨nat_lit 61902405547152416641966836911250644357593114199706470297519904970000, nat_lit 26446135122124198652137294221489393623146647725767281111694156260000, nat_lit 1821305790604046243913224374187043859074365160844757912679818834000, nat_lit 262220444748018576819257688727355037027021248342886605867896423500⟩,
  ⟨nat_lit 27448939853391297613570443418632999963322977528436423891362604900000, nat_lit 4506205710413906379968448932575067843190502794647648703000037319000, nat_lit 26160448173691807837006288533495843974147615317646468917230151110000, nat_lit 503808532638349687145869596295728658888690171308493662774713384200⟩,
  ⟨nat_lit 7055162427446294071583784080121569800814277833204393247543820428000, nat_lit 61674700301369669755393077588094468348787305493617322106979348240000, nat_lit 16796577393344414978455748747933903996674968835457725422178726700000, nat_lit 459643009373445478524901815994889339540208771536626796507076373900⟩,
  ⟨nat_lit 3957871499059648693651744939920241959428178590253433433632200619000, nat_lit 11338535392540269711056409472198340501291810696436177150717527470000, nat_lit 82307567263324227824780022759246499234184737779713733966166975350000, nat_lit 137273751398061009727959543144152309198390068610282946259994950200⟩,
  ⟨nat_lit 5984215279921688668459631063441038678583506372479025900174950904000, nat_lit 58244562181129762493563643281176622299469373232452368045964308270000, nat_lit 5135020813856370601964510296668370516580476620730939249528496889000, nat_lit 404673383139004607332689586929546308698622723952409142028547481500⟩,
  ⟨nat_lit 8319465217620490359081847068709323548920937966547247932471790576000, nat_lit 70099729600495652215639390781306583469415491127326173713740691650000, nat_lit 20878319468786399892879484226155409051653639308467656186913973050000, nat_lit 122587714328251535116048205986008159557744450080869865129444725100⟩,
  ⟨nat_lit 765423430641942960607851979814876506008417869966119406266459863800, nat_lit 41369732926538411673177249287036350629901442005196615998384369010000, nat_lit 40619861423364649198174219293956637631446182286513444269476577190000, nat_lit 193772282766234612433788682551912917280720727643586617604609941200⟩,
  ⟨nat_lit 11298102561834736267696137599071840278951834597631747538222698280000, nat_lit 80265563291440442442345177517663551662923140256620145212667241070000, nat_lit 4102805741099924180092794207906812244489460839351006850779579005000, nat_lit 246745688807312524591520167109522821669566686818237898891941234800⟩,
  ⟨nat_lit 42259463839439644757101717352920344205514581216199519696522926260000, nat_lit 2908550676852247322512734560924981935846709091614635269372994419000, nat_lit 41679521765215809192177754532647479016747224949876309493525109750000, nat_lit 393934257957154418888226695588217543252517779850559266359481149500⟩,
  ⟨nat_lit 1654881741691923819876281031938806950359844728963238005290385066000, nat_lit 19286636253955301705257304789570931624762831636689493905666815250000, nat_lit 18442176051978511360405322867943981515520100521991620083067491180000, nat_lit 236633054863969216932795753248728482050108632143097774476679682600⟩,
  ⟨nat_lit 38597561114963677172408474749246132232538832849162262434069658680000, nat_lit 20226857641874954213959783420699229582525062653768269579929988400000, nat_lit 5539941761622875141289853535237884104212996089164399236118535173000, nat_lit 655614637663887420323094597035812667973171215607506407134401381700⟩,
  ⟨nat_lit 12944992639593645525823670528638873863545309037031376435398461730000, nat_lit 48344916724071172066699732904320127301015638338980935936048819690000, nat_lit 23737227153726327971215988393231107681856860822676764614803761930000, nat_lit 765980155359734752232743973061081767330639050278171632410784913400⟩,
  ⟨nat_lit 12727704856467327432182093062591249809025297327451179121790170540000, nat_lit 4096980179460025966023295374644570231723190045875753242947395164000, nat_lit 72877854647015749161229651271764089374069995254196656340048822940000, nat_lit 327950022160457815934918120591987856551999240854365299489974555900⟩,
  ⟨nat_lit 23905272367567048059628868788495234776969499157195853594277820590000, nat_lit 11520458522194287067007219219801193787303937675614321976993456330000, nat_lit 18716076595068215582673330396832762992819852038296369143411090940000, nat_lit 671529320108472501789470129289324910709376060373826128362243216000⟩,
  ⟨nat_lit 6254164379999928992493566872953296775570162478366017606542074751000, nat_lit 31476589623884389915556172835492529469978478730154369080439042510000, nat_lit 22610300574805233120890075265356672652571229740575378517744187330000, nat_lit 789418062282843252765033261639265639721346436981331559596549660700⟩,
  ⟨nat_lit 45092051439553047872792826137476835009464003663704437195406370860000, nat_lit 1268306491009438342359041988963299270526891035878147707726279733000, nat_lit 52238391076120482083290894852672937010779902451013464714636631690000, nat_lit 111517857389869372754043982738175826853881640719225777958697247900⟩,
  ⟨nat_lit 1342688286703970690166652125658581380784296881583506375217973462000, nat_lit 69737765824661871802722245422702255197198467375866193776245423130000, nat_lit 7082383571663130486628660959144002195665322661516990202159672432000, nat_lit 215357408874620072651869357379366415343422276169366438194016844900⟩,
  ⟨nat_lit 21221206522076241376310406685045435560194921009184531226373368250000, nat_lit 72505198436409601122539128713020324050506504831051632920372978970000, nat_lit 901172041217605863539215575717595904879545054078899741909333767600, nat_lit 122882950127218532161331016809974037235161719210677723999646681600⟩,
  ⟨nat_lit 27137546640052373119036437056959542212179170141584685136854109980000, nat_lit 13602879384066496011943748257468736648855445823828145163240814430000, nat_lit 7757388786007158586617724899392016084933992786989830168647418621000, nat_lit 503683293514540553837596069508497957169655328047061733223382756800⟩,
  ⟨nat_lit 7041804525111942905643778179855076934744257234256238141497933620000, nat_lit 23537579099809227014576064689066166565925498999265863417740525910000, nat_lit 14164241535598361354236757494916116140078494523758955620685040050000, nat_lit 603263938959462205485997404308958499913993568116118365568988713300⟩,
  ⟨nat_lit 638035029180326104223757238388126166941321715211175037571386004500, nat_lit 7344839882126205731160534515910127349392782763762195032433438090000, nat_lit 340119803675995921902950397767390857396292615147910496690009039500, nat_lit 16103166291526587146150084155495392339904880063579922546008669080⟩,
  ⟨nat_lit 3864553167589004901272076441084884900653074070252104340590163451000, nat_lit 6863532923036611594006487237234806611728256822287934381880504054000, nat_lit 80926007379468321448846754197842949417549165024441456407472144620000, nat_lit 240051866797644290438231546588925324735693569698556544133887306500⟩,
  ⟨nat_lit 18532663221787264909280946133617461430441349255153205204360660930000, nat_lit 4856290813123438743152261932505753271054690572632335899727856657000, nat_lit 34651999483012863738085590491057311746337098452517549818862604860000, nat_lit 314556837725781904113338789128676120386549080639461465263603438200⟩,
  ⟨nat_lit 770022200751806816136185898140039612687537668934683278383126854900, nat_lit 55882647247029578565385475572674923185315243252666172841488542890000, nat_lit 1844177240178539527707021291801081250869786970657674752374266666000, nat_lit 53906447578568851086110772320862663771324559279988902866973781860⟩,
  ⟨nat_lit 5489917295687167608765519388432233690244511796732376043201829503000, nat_lit 49602593424604593838155547546001583960438520953450491506932000890000, nat_lit 14854542777901650063400514681231756330851881020106962049983201610000, nat_lit 458503670369231547849261621347509367197516556151339189057166033300⟩,
  ⟨nat_lit 31412993004327285265239677634734049562743483261755825690793345250000, nat_lit 4495442805734323707100430035114953561898268019342615356420335997000, nat_lit 129880696019458424236896970338069349936190197729347290780551824900, nat_lit 47170346370845239489346778011375300414909471342098994071914166060⟩,
  ⟨nat_lit 294057657262928925117203804208246201893798810905371103326290021400, nat_lit 56110894979139738961209940302547588080245474513999066308003844480000, nat_lit 27476990820819069045745792158814307151983203801134172980925677130000, nat_lit 95293537400553126569403100411825652663354011141918235663746930440⟩,
  ⟨nat_lit 26616301903707108315820876856585842731184890722637852696383865870000, nat_lit 20419990521808695405815385451345645316836856134748838469230320730000, nat_lit 38986519304161555385091274154737999185386647005720746364139748040000, nat_lit 919988986851909045733131298834520514234533721501789221559810889000⟩,
  ⟨nat_lit 11652414100262225181268100052508999281869156149765960743157691980000, nat_lit 56607495153417313316339362519449308759256128614987807728192567630000, nat_lit 25969507702665118091214213231574839602615990920617667445966045330000, nat_lit 453649445164444058297068116553032467180111530562557236452001059700⟩,
  ⟨nat_lit 26091681075729212281492943825785868920657465997835854042559225210000, nat_lit 9788855053430124148471420754992867678819192486483877747151971617000, nat_lit 42382164875947894160666545935094386823690303507319470087152402530000, nat_lit 661109219926985471611440501718557539905491946269191611521568459900⟩,
  ⟨nat_lit 34587412117772352713452948729409689601010787521379041682022302800000, nat_lit 57470564729159521729554390254001237678952930165211970411604614410000, nat_lit 1357070171658237037057670378023906649080366538571018007919649460000, nat_lit 219964716737788311706168379314613633871855092103438610262812641500⟩,
  ⟨nat_lit 69026775167914275636556705639624386948617665232316994603626429990000, nat_lit 27224726263417133628133462489699365582924182796230553018167572510000, nat_lit 24254843602509124358493436132920746188396576176309170693513520180, nat_lit 55943842140351859499253782533925201323944066669105335360634330730⟩,
  ⟨nat_lit 66908904272556393264189359624902248554260751109588349496077303160000, nat_lit 5399048004913001270897981621827618862394560623664268515135168389000, nat_lit 8692937446906422606049169143865338931403229015099460089625937659000, nat_lit 399860520232179481980554856013708984035758492489678477913326254700⟩,
  ⟨nat_lit 9951766756229925086325396712596015471701792986887464277171350766000, nat_lit 21900675084418012014534832377641317216501078701839669740637476100000, nat_lit 35588440850987391778231434481230494611975234385657505201152693510000, nat_lit 720691788352323148154706426041309296807283398664794152148873770100⟩,
  ⟨nat_lit 990990735346167347888654350482634032227570382130239331771820621000, nat_lit 38525477082768986976693341194988815991225893563318360084327028030000, nat_lit 6538462190231484667665774362928344069200864548659284017899121787000, nat_lit 189957761687768044712416475621468976983049024719213085394107455700⟩,
  ⟨nat_lit 5164625518401525863455114292552800536228204886110515833004514071000, nat_lit 3862310371142001341552909448455904646020747488721196729747366780000, nat_lit 22204872008835734557969226513491912772858215290480169028235027470000, nat_lit 301610923634402342058385173627890610806506454967655535109364838700⟩,
  ⟨nat_lit 89332634118901049261188690212580333655176286780597178128190584630000, nat_lit 5719018259101757286460825880411706923847279381962003134699805502000, nat_lit 1023530997959563835469888239494416819997944825651874334118218806000, nat_lit 67958987438557201773263757231110730827625861906185462671887011020⟩,
  ⟨nat_lit 90160373068886569115111939832129310244705251146856334824350724620000, nat_lit 1228742383960518661143416553657575518236687245023912177273735693000, nat_lit 8172469307381075601944084692569154521289892970285650762516231920000, nat_lit 28589758732812699752314545547423308892053355430874240917715882740⟩,
  ⟨nat_lit 9646169292311048556995242969367448512083177928372044829054442534000, nat_lit 35379753189285402270446560266282061571901005178417991996798740480000, nat_lit 32515173569546772922127261294702986085885253114779900869466356260000, nat_lit 606770490074056231580496730030149651142992259923872182416689740200⟩,
  ⟨nat_lit 52371055234836693246608943242246044294555589013174672940242117530000, nat_lit 5505157744500640545849043847979824834548430904366273012534818893000, nat_lit 41714894766580700067721332490463665780761931463927898236428285590000, nat_lit 104056944006216971341371196972368861171823710296860151902349381900⟩,
  ⟨nat_lit 23963337920412212163271445145082918134476356553046772431155452230000, nat_lit 1572395419845766263958287965760687807329765137923368273463655272000, nat_lit 5487788692992225761607085632462270708466499558209302299619637866000, nat_lit 132177051313145931909443208330176566999234330336034457487537814000⟩,
  ⟨nat_lit 9860626296365636150965225854741144800048139669652237605939712693000, nat_lit 4975634092482324789102283818571953297120959673267987862761251281000, nat_lit 82100080154456600648093461618348490777112969021509889206852834150000, nat_lit 174329849345337112084503460893481398109034386117929844553623322600⟩,
  ⟨nat_lit 30277781797567957345500988892215665604163548110767140112591366260000, nat_lit 24072792784048108794134329404501942550449248545083982633741876240000, nat_lit 635775349531210268827361750955399626440801823957855096608559691000, nat_lit 199913611303498102599156922498070381102365780602782281409963905100⟩,
  ⟨nat_lit 29972051548199137067795548977236417220023635515968250340567879480000, nat_lit 683028534698622559673389330222981745447552319318870007127353206400, nat_lit 33345985404015913795630750420828439288122967329784048286002262260000, nat_lit 238598559083237965200695325758102856706260381717059282641052330300⟩,
  ⟨nat_lit 36115836872092222183921453104870702358056493023435136239536202430000, nat_lit 72817679215515260772799899514749760439250548510902302923147853970, nat_lit 43859640463386688045664897789651009337551577625952399730762067880000, nat_lit 119355800128053637396915047021079040981787279624068935577296674100⟩,
  ⟨nat_lit 1099654989818601506335378535717008621120812652970889301693762725000, nat_lit 853875999782911168202587839103656284586322266300303624616637231600, nat_lit 78323962493393522349389372447042575700249778490803057712611316050000, nat_lit 51871052113188475043383277312689620074531360133787103067842080590⟩,
  ⟨nat_lit 13244809796565673200928182960999118984491140050540352470962906240000, nat_lit 43484937669845478387092118067706353824643083752013603959869145020000, nat_lit 15874943934195966442363641834195848812615806465465038759704828290000, nat_lit 755692171355914028675278460462904649253195306726063141054004887700⟩,
  ⟨nat_lit 12421450920365868974680012024728539528495884852462222760634729930000, nat_lit 6303039966741256969127719333931789241301272857134498014187310838000, nat_lit 11792636351756504971875168985795477937768360120790266809311168950000, nat_lit 441628265903711433475158582920801819704464292643477846113310983400⟩,
  ⟨nat_lit 36564861695467977714751365933836586401708162851161539053397401560000, nat_lit 3489648667781381793745526339224253508800852196877932551966546438000, nat_lit 53886309501051400022522773250792789787896572508159366815665546160000, nat_lit 314475314092422619667141503950035284954828775784750476344475415700⟩,
  ⟨nat_lit 12847115560585424135191846235189414149208333123888929648362358560000, nat_lit 12919002792967471237788985166741782095387239626796107957627845350000, nat_lit 3484084325885907616685826537158545340012070520619783660234761939000, nat_lit 312357864548249848363118437844189888969477071813331525640551406000⟩,
  ⟨nat_lit 5298264114978927168598283133416936223593256950146268319438675157000, nat_lit 26419840838306407679307175337954533884171678651778404698522077630000, nat_lit 66839951062576258021309507223032519647937692329778675516519583010000, nat_lit 183896270055662245822144874892231557558071922066803838521649878900⟩,
  ⟨nat_lit 6123520670733428462858492977847516356511131194001282306351897616000, nat_lit 37620394161060419426836457426792774376096065643047125306501096590000, nat_lit 684374990437893622186353445252260347106733696752633056284230897500, nat_lit 137174101151235188601686620231633032456853075666929726118914826800⟩,
  ⟨nat_lit 1365955631524758957217872017345965474701562206680501885226399146000, nat_lit 81146747108161546378283814692507971805614880193500603871579493520000, nat_lit 1092251250696433532084834057757886265398812970442801961640418562000, nat_lit 72500359567296190455168752142697435756551951883985486236102022130⟩,
  ⟨nat_lit 26424075880828338056815619284467964959077748820067006062072627850000, nat_lit 35011849201847498193092930588339741220437140964282855587104459570000, nat_lit 11672774911484493706727379548187903658470673037689355817533109940000, nat_lit 997928014351279217272748719822578324576548868051649444899494507200⟩,
  ⟨nat_lit 69700237127405188071266313624950846162473383959605478273984829810000, nat_lit 5786189744971472066141815695511155095316851706694759086124202125000, nat_lit 15958076317080290730844840621711337800440787602542804428824897870000, nat_lit 415130919380129792015741374067840994227494428730606713835921125300⟩,
  ⟨nat_lit 23799548978302243464040782925876306807103591940525845620243804920000, nat_lit 60397294273459904861132013284047635374679327367099365210367176640000, nat_lit 1100471788272129207865824516235104560163335214267780344086791406000, nat_lit 244629885766135759376794236804368119264506267220468574979406620800⟩,
  ⟨nat_lit 61082091668573491904232131836115470376947401588772758984304429140000, nat_lit 1074332605245851623036889039154703357554117273907067407223426079000, nat_lit 1140019325605984273674030248249455405486905807093497954889789852000, nat_lit 82391872032286536660989030328022942917941556352133558596623496080⟩,
  ⟨nat_lit 78658373902244448400796571133504841158147880413786657133737244250000, nat_lit 4365604779053957594505472401756124414098061215519727819430036870000, nat_lit 6431536991359185153774519058158891611745526667471679341756972988000, nat_lit 149489739975192733735444576786019034919541992120225673340732455000⟩,
  ⟨nat_lit 40239762338695775044355915508026254423275682754007392389836283700000, nat_lit 28339835327988494655049468932247495383107657224894949673190876320000, nat_lit 631402646234248337266522300053853110770965932806255925385638084500, nat_lit 173590978605474289581651233065296302653637665458633615794196385800⟩,
  ⟨nat_lit 4611450825076572588491054489748304452601897954226482796089576969000, nat_lit 67045446482852074592108303991830900325592756794642142374219680590000, nat_lit 22569251158239369800369980905837465424419722579228366538557646000000, nat_lit 338125475234396548817888657731565063268752879322229659921287330500⟩,
  ⟨nat_lit 28749585760295971607662069136547461129336942750736215186436343030000, nat_lit 70016530926359840537389741284338678138843629819546980596388931130000, nat_lit 356265983743635358455546082211685278630843766069069091071574000200, nat_lit 28954978069493328257439643956887544909130924587184291431330429710⟩,
  ⟨nat_lit 94164742133590663637145293075185511526049019046743726184967378150000, nat_lit 5612040951192621338368683423027867227676435624936727023717893191000, nat_lit 213809799517575656404475344957666267478685894574583552954656777100, nat_lit 6067796242894806643856559447893144259716038375175045514212109497⟩,
  ⟨nat_lit 14441316365184449911025208088369747437030513514472357795962037110000, nat_lit 8599916448628220637161615534715528459734881927576979724560780311000, nat_lit 22823757249015870953482112607942505353788466165358429451869475940000, nat_lit 395351245826067788757520945794955488646231534059295917832648232000⟩,
  ⟨nat_lit 11248799349788569876548429779245460025612817636931904131534768640000, nat_lit 36328712217877421447264570953239738590681274823317526118336857780000, nat_lit 3774235826772141863858217472790469584925344494690430358311596951000, nat_lit 345110601302975735651902640575526737873495626377196784938625619400⟩,
  ⟨nat_lit 6554943425495139206154551944603976434070309783816300238131806604000, nat_lit 10644683810340468082775015404556596962542104176637341798613488100000, nat_lit 54937260781340373049399928251771133616502167156347183309187331950000, nat_lit 310222978863636674651977657694377696297760683189662879961432586200⟩,
  ⟨nat_lit 67482798432206525802543250577895952694364125726599827095671610960000, nat_lit 13590898989978187317824693013787171696940864602442272684787755730000, nat_lit 18923065169584399895282732318303833898377123806417630571188353480000, nat_lit 91789344661826108727885813705461181092106511209488158572791384010⟩,
  ⟨nat_lit 574062664828517308544234896378653457124144420601192950543014922200, nat_lit 3091912797410039757366122382232841851277796160886754544648788538000, nat_lit 88167238291825663296180705885107200117159528565994530310478167340000, nat_lit 40093049653498307844862644850565723458778447963134554269747769690⟩,
  ⟨nat_lit 53838986369209742504632531202481350381431602807681431066440831520000, nat_lit 22583059404363338317082485753195720234356927337616216805777279480000, nat_lit 5332438468558471264815411615211898123917574333717561826573447622000, nat_lit 528148478744660672950325757770998278875077417430061905595230378300⟩,
  ⟨nat_lit 62385585845439885567288209124431719800063406218772482751708083340000, nat_lit 27258247107139349605125004716877550216835344301441683773929799310000, nat_lit 9518933704819147235030774521471294952135226763233188982316304657000, nat_lit 176620886901111977043197593163199744672435213985839998564259234300⟩,
  ⟨nat_lit 78609907548620909187828796938585862681672459502107529396755333290000, nat_lit 900935615899022239678717568971452094126810504919589796020733040600, nat_lit 19423681452133313760182195237365401873322080311918788431894854960000, nat_lit 52971909607184723935233657092899208887961485236710125564804306810⟩,
  ⟨nat_lit 24635270763959804214284230142232988980036070352800588543358507980000, nat_lit 31162303986628803583571720022868059342701672263718867394801303180000, nat_lit 4574106355644321604791875724760152889455952465438756640718948275000, nat_lit 600718320386893812475468507151110478965263678809010045893030594200⟩,
  ⟨nat_lit 798117059713718379222740026005664497394932947762298088727688258500, nat_lit 43174429459267105515350427474721785147080995853804649460123535300000, nat_lit 54305374504499074750440238372839604820662638884265984764977043010000, nat_lit 76211550352069564127326736453541917036975944071684194181207310070⟩,
  ⟨nat_lit 39635170569694468265763360764165218950724037568383914517700068940000, nat_lit 30818581491726991267656623847531657251674370525516434775101035700000, nat_lit 23022556953935893284996673569029791499238823414124724183115135440000, nat_lit 621816181240257834686205817384715547246002934229544297344633118100⟩,
  ⟨nat_lit 14606430685402507033978240365866828059273850390330698268610636910000, nat_lit 4637033832144088810385224795420545627078675962631993718688841366000, nat_lit 47432592313443210005631690864770473626454878343936003741610450710000, nat_lit 493811188202875018050625439907647344122253161012162267929378067300⟩,
  ⟨nat_lit 645416357178310274450447603157440991181703719007200780551731909100, nat_lit 83346094190158334643994437629981465203360286963045663325963023910000, nat_lit 5611666760135581295590371602818750112541589239230307279952661722000, nat_lit 86450926248702502542500174894045602724377171594126601172465191160⟩,
  ⟨nat_lit 6697805240807824335179834989899748351350024298366840868360977171000, nat_lit 77770646513616874485879635893503267651055430729571526365345697330000, nat_lit 13218670375702408927893074274572492389871814642507974491312084320000, nat_lit 188525727337277901808438115251949186061759696054568169392263953300⟩,
  ⟨nat_lit 53958810525003085581750264869100033202174715406759314890046903780000, nat_lit 3136471999896161273843148283757225766592214950316447050999265025000, nat_lit 38125514886509680533026950295633388346993653507239426624027877650000, nat_lit 284022461727806179381029129945462405127571109830646945414994140800⟩,
  ⟨nat_lit 8468864289207591287091143905066059307530704573699404030298945530000, nat_lit 5329239482701243951731690366856451970005197432004826561241905252000, nat_lit 4794689656281525857406088975962794122038444582730143911830054282000, nat_lit 206601491689557295630701401717680958872185426933546857124574336000⟩,
  ⟨nat_lit 5739268752921877938775754930833291972315877058634865707573257523000, nat_lit 1592695931926255362176053422350036847570931139019045041558733272000, nat_lit 78752172115567922232029339465524786282550379951986091252273019570000, nat_lit 169909703772349487778542058192264519599997068598249877781800865600⟩,
  ⟨nat_lit 52293660785844784614913530348352332268897333304236356576856282690000, nat_lit 13163579727285702897251023964994813888752625224949568380832515080000, nat_lit 34374234003850081279299461706516255032869486703384595240250460680000, nat_lit 71225973508737709321896897552094016103081283781633606880457613270⟩,
  ⟨nat_lit 41987513225788208328085435051689507187095779835073155178593497580000, nat_lit 19734484805027025532994823833536108561375927197299706141127634930, nat_lit 17809077831757401830782149036669002003244034785813880379775999010000, nat_lit 108438070305069324396007572355784625124203311863532637050713030200⟩,
  ⟨nat_lit 20957222969527008126821471874123849747357117021956595959841595290000, nat_lit 1378690996587224998680342320873541089842364622003570181810285612000, nat_lit 71598888099196546472872398215385267102204935238232875562447625860000, nat_lit 183791729615606672510790114155307102762900394256010811773814675300⟩,
  ⟨nat_lit 24418364801704458647054132395653546841406392569730836186556773940000, nat_lit 63741728836229834007944457203648454018229868890674548854840613510000, nat_lit 6016393483422860632469405794247243768957284949531583203717802113000, nat_lit 335373595274879365593393671195045808165650424203785771976204610700⟩,
  ⟨nat_lit 4082163076881841411953068160408700306364771196303851399579692835000, nat_lit 92876864550856709231924397706149635882865104649819335886556131820000, nat_lit 1541617281416981579001189718219622220972267109211876998819949692000, nat_lit 47293756356171019114536282983927717414815889874263065358353211650⟩,
  ⟨nat_lit 6370902142816631079834328729854509605296394701821514415010688834000, nat_lit 70438297159575845969215862874550181548676053011125647542443406140000, nat_lit 1265774276359397045632422525480283948554919448799687737757276640000, nat_lit 179781441223593159670853191616363658206965122147568423265630112600⟩,
  ⟨nat_lit 6181587146347279637740131504355787509093035866800688272803040195000, nat_lit 60811409235378035057952186567251216310251654161985970021543631780000, nat_lit 12080156261377341768206216581561352283894650889208961494519327160000, nat_lit 303037003939679392562781991352485021764444642522782138118479279100⟩,
  ⟨nat_lit 18038366686319591270057014423382730704405573335720636742820691730000, nat_lit 48797619999938409243942013338325035720363263941795855668877982320000, nat_lit 33080619177452221818989718865627606585800023106617622175233780110000, nat_lit 107398163637155317481598686701879269203898360914870934447484365900⟩,
  ⟨nat_lit 34126298903173807963790657512294326220447920318557693019140111970000, nat_lit 241810021034317593738235479703476006239886917007178207771179113500, nat_lit 58383130222020373491341230535531953321331339689125785385201427550000, nat_lit 88897683720573408295519397356165979590322011904060006295233873700⟩,
  ⟨nat_lit 62691000346344576151180966221694753212634222346267529632076667330000, nat_lit 8438193985895922447519960334193062996299476793634997295082974050000, nat_lit 25532859117683244319665836343398206973848553582803233258126821690000, nat_lit 347167292234903745280734695369841308805643396937518636223336534400⟩,
  ⟨nat_lit 1335947698052965213613148483902759485995674662216459557920101190000, nat_lit 29665460133731614172227570444025280357666083774263831221966838550000, nat_lit 15071343051281421721416296178351500149766755365595268078740893310000, nat_lit 264374152148981079149780869902016178127510155359380059646203823400⟩,
  ⟨nat_lit 41508833324627875599466797466163155575205311456698602197765422750000, nat_lit 3191570908040631159123742917059019982909692108106998597129441553000, nat_lit 23709738259088375329508357270816904875136716736575375456947544900000, nat_lit 505295987872178983491884072211990986885994977161317258603035078000⟩,
  ⟨nat_lit 50201567247877774510578488368107900506698139356299428527649965400000, nat_lit 31955427868577422491860849540320622770691980721248311853988343400000, nat_lit 13117506641490327326942599559901050453532209585334945530623404810000, nat_lit 398391253434784814478023012677182700240658897278354029743388822200⟩,
  ⟨nat_lit 32712323890359192613481865847553342057035652307465148754317239560000, nat_lit 59741015301825385090685161131602177023276717256441116460859771630000, nat_lit 6571737218330898153053157634026934608075676499378585382694058148000, nat_lit 166983487647637974047467247885697885683305180033966124334685852000⟩,
  ⟨nat_lit 5982137767355686874385547821277175814155325601728075983094000099000, nat_lit 74016962329233494019400983599605292646178660463759769174909138230000, nat_lit 5542504826791235700557916055495416363435587034445764824149207304000, nat_lit 294850480626253728612715029261105784916500089177377864724309132400⟩,
  ⟨nat_lit 82672456237196472958433346722833777071566033202363640736888018570000, nat_lit 14783964959788427226016185699930546524234105198180041927863358470000, nat_lit 1237249715504064408450768304706597869666859852963858793781723363000, nat_lit 72137760818535967755826497511567636445968449643688788488689560930⟩,
  ⟨nat_lit 60347970965388245588988575462298166924552838923448046057070650030000, nat_lit 8842068785397129370623928909975568073057505297755864977167708595000, nat_lit 13605352489518561125592422871054616748899952443477569521634813310, nat_lit 69310185387191572143365412227218685226955543613738508497454486820⟩,
  ⟨nat_lit 14726077243934467347662574559724686243205378682057440297190938010000, nat_lit 19084091123029612099653326615920791660237277916911768118129857260000, nat_lit 22596299054923808739177549827152371797421878460201041903329363910000, nat_lit 887816700781771013589260684975419888535750973440022722686569014000⟩,
  ⟨nat_lit 15764104371240833576934327391143858729058569991326843989098910450000, nat_lit 1119078175735080534958402046789320052973669575864344502728296315000, nat_lit 36663472267799655870213078523528843474760980523661664734731625030000, nat_lit 293309826039256460581417987641505319570052253572710479217413971200⟩,
  ⟨nat_lit 42550200358903002202258736443631621767567761747401582583078863820000, nat_lit 13471126367388023064492346593191211077185613256022089563305913830000, nat_lit 1272439970394625396091519512447929823441005057272552876581651529000, nat_lit 293730758234709099726243131880302413267307067280702062773026665200⟩,
  ⟨nat_lit 534880220470180033841043715348246976907983086031377958101966065000, nat_lit 63669702418692198868148012626042418318076820457948752007996026250000, nat_lit 29277608443574434618901501439883256815008922905145308287909796190000, nat_lit 123157601583340339403180496001474767788136775346443403895646549600⟩,
  ⟨nat_lit 28982263523711913519050588880008098813515413726514321933021097990000, nat_lit 54494727903507732122631350767397035844429631902434195943957002160000, nat_lit 15642217974506695233689816942735897235206974728978872782362299080000, nat_lit 210197135718215392499223136665329785341943889311215236594594518600⟩,
  ⟨nat_lit 7070646720825514667187468936728070455104098313403703957132402080000, nat_lit 9573216990857833881310758726327002258467083442840653612165268087000, nat_lit 574644009674762858520427356785146836378831560099526169878154279700, nat_lit 92588821840971402543016552159294933136950389219455132282271753280⟩,
  ⟨nat_lit 3562486110908057162023331109731856734668096553808332563550287705000, nat_lit 27798332563298036532272211681953949580896717983944468366236979700000, nat_lit 38900382022627598429118244345776559771672161992604867378671702790000, nat_lit 538434881113249462812747370368927531373783887490418841271578867200⟩,
  ⟨nat_lit 7031897095089737558162509140810219895803086682797391192634429714000, nat_lit 57572675275734836496621924931674950946181340051512215319106689830000, nat_lit 34173923253074248346415766213249395369876754805603450706864375020000, nat_lit 215214870174281997256003193411539235702640414632765648185366272200⟩,
  ⟨nat_lit 17301438988066024960513089326183341117977343704600751367482624170000, nat_lit 4711657848405264600258739117384227447751945441132320715665058836000, nat_lit 988190270351869809367929552416874687890669523469583647523840970000, nat_lit 132007884319307500420113589572072163269793631591847192066488393100⟩,
  ⟨nat_lit 5262564147408953150005085207606259110055994817283546270889287798000, nat_lit 20013791068944333244250080081244640788780363395424001527817849450000, nat_lit 52863016352023051113106732667418989484710424332790095703424814000000, nat_lit 510621670282793579602661004618967334499967282485990524741953625000⟩,
  ⟨nat_lit 67584563042028401666020107769257334366839808738139540060868966930000, nat_lit 1287249410865206805118700709251437525844748605358290766680811030000, nat_lit 5370649953542008464434437532998087396748746146826066338706722950000, nat_lit 184308299079821658846566672986514736096199273018222392888007671400⟩,
  ⟨nat_lit 727447555174932596421977752985129811623541745575681145316062212100, nat_lit 7364044525685234084802583567964025032321998494971193702866332168000, nat_lit 59812399535722151875850274728876162621128784341211638711097332000000, nat_lit 135486534363909912450411255636429378626235816746828972127955844300⟩,
  ⟨nat_lit 1798777243576984836586652452814545198540250331986224989966930716000, nat_lit 7798484728982714735342787543676950118887581955830476085877170858000, nat_lit 30512883224328896509168576686640370549843895142226470563869922790000, nat_lit 261847293915964807502160511758583387408571368559888196792154140500⟩,
  ⟨nat_lit 4340083774891521584416482739529704014585848101433226410625985262000, nat_lit 86351459533591205463467456075183035424698017679720517105514209740000, nat_lit 1412676965841963671319625998484852492121840906270560834642300052000, nat_lit 113986238941486375685651233178257895178305281559745367454366618200⟩,
  ⟨nat_lit 4460822224359094661446115515841377869666785685460033340811502177000, nat_lit 349860362587636114064587359859630812012607862297471411026678171600, nat_lit 4986625756203882962996012576048435454596338076919575428161146514000, nat_lit 43013777921663194609446251995773950087811876059821171547174987140⟩,
  ⟨nat_lit 3933958928068964017172117460826054699429928459051528037600578157000, nat_lit 52534632361090697384388046037776063883220648491830904194442430400000, nat_lit 38003163275585519432367500654179344394883569537233984464814832310000, nat_lit 285730245965851800939672957927978984316083535442126080251953148900⟩,
  ⟨nat_lit 16241972111383416951958093935088206387785900283714308085375638920000, nat_lit 29620887359453888181040984650776000802883124776559085997225182550000, nat_lit 27381627038943727164819406087883175716501664359834092787238089730000, nat_lit 511550283270672057121328185232884484628815109069674772736715685500⟩,
  ⟨nat_lit 2314870933030146057732422704139000760640442735968169358914439482000, nat_lit 222188741386160180314881425305643657679624477677242073294225926400, nat_lit 23519566978558739478990491151901675944175518446756204775663185810000, nat_lit 53438317950232047447805072428332661441084385121210503633572556320⟩,
  ⟨nat_lit 18356074463520208807804332193816765761940171571533458727908507360000, nat_lit 230171267310249605098462196502062149632113570342412283783167269700, nat_lit 51772081973153801857652305441572423298990205115553173853368140610000, nat_lit 156693482118498503379780274232361893167886189585692332691444674900⟩,
  ⟨nat_lit 5423363943674417702359278884412140391581337520324493843263632384000, nat_lit 1319331653810468904063769625284895995012199680198359889849089478000, nat_lit 36617728294410704430365939698169227265262334678349458974865193720000, nat_lit 207177683850247850570165148835837957148405785159639389090167187100⟩,
  ⟨nat_lit 1889523182858401126566601726997951019911244527370216055430584850000, nat_lit 88833345676724705906194053508792051706850204702133477320356143560000, nat_lit 6030910586435826252343003654218873960281642210551338792367595511000, nat_lit 92809009437660466994686287699236109816470358983478678730574569830⟩,
  ⟨nat_lit 67069431502429323360198290376414549542186539321223736337486819070000, nat_lit 16174437331656633589433656024950195289247808614500759978624191220000, nat_lit 751028977764890510772505514054931593595006850090181649072511158500, nat_lit 156358585746625068490265898891507973193521617695876181145676186000⟩,
  ⟨nat_lit 35771395021880978205227517355944462075048330630097215802157905230000, nat_lit 22248567717968071062751237588680702038585110567014357999313616920000, nat_lit 37117046789175995143300297070993415294136344647061412888851689180000, nat_lit 560501741278501602031060818691190025183617016078270855359667773100⟩,
  ⟨nat_lit 56859340644998032333187327078960648683804946266509076407318266410000, nat_lit 3594625897654123078044967623232604794605175955263744864637482430000, nat_lit 19454840668231900932540078374651493229329734203161111109092379400000, nat_lit 467241540460088089770214034273745026950562284457585863567540965400⟩,
  ⟨nat_lit 39683725877023734144538624950562425879557051622056144928017343850000, nat_lit 33440340669094014097364946452255135132482029351779683178141879610000, nat_lit 5594925640240089363578115155358735593279054775401265258469976934000, nat_lit 573713044242123638669154493146655583383973800967512510723938337900⟩,
  ⟨nat_lit 1312731476863628609096918941031390479308106146494298278946969166000, nat_lit 71181939178158442799470499282594694090658315823778262381239631450000, nat_lit 15456366326315853930210864232394415904525697602933351872930521490000, nat_lit 237654436833798440784439012314808794314151602917432808798601414900⟩,
  ⟨nat_lit 11526352455809931115145023536823096838493593523071251199326680210000, nat_lit 48739090272150107932723780180038500604358836568838301069952801610000, nat_lit 1118597063232400364477544928467728884526477475863374259701644557000, nat_lit 212643630000827881097666276005525101156635915162456714226230561600⟩,
  ⟨nat_lit 48329035425774693714067831082582453154405774154845975416631738760000, nat_lit 43664784054262595904905648392588490075534038542613113552964083480000, nat_lit 7068264595558336440276117524003746550609321423101703219182194487000, nat_lit 178569776918105349710497998888388845897343123657641769663631977400⟩,
  ⟨nat_lit 1411287128719688385274743197831753610305537619134316540351538640000, nat_lit 789264189637873912838904682724721695393117523276175682558828920200, nat_lit 50853158989501747463037500714996898200600445009751872701334170530000, nat_lit 76019687265678116849908575897139470341175021394039913631342694310⟩,
  ⟨nat_lit 41106402736176933349726963205125594414253354896393487158466464780000, nat_lit 27939007445985382305625967410731564704739989601985520038313095120000, nat_lit 29917023483017644476952917111964492291999632936926217643337412190000, nat_lit 284903193372295982931275022966920250152059642034064355224398668100⟩,
  ⟨nat_lit 14883905416410356728454124518704190318858471323546235798129234960000, nat_lit 23658915124570892913432421207184889423345918171327563311325810730000, nat_lit 4618544928481982037743043092625942732867402379383219373115473349000, nat_lit 474103766436737418820040856023222330629203391538757859693801100900⟩,
  ⟨nat_lit 40407073189019324900345711492073560794631672345992312463240762180000, nat_lit 9609764140159854894850328075042190642165989128753037161987055786000, nat_lit 7410819661390301445778267960790912448802114567721291098709910388000, nat_lit 518772995078139025941771410292434032317513389837197134942651319000⟩,
  ⟨nat_lit 50517125221471956490530350104047516567811059726573073882549184430000, nat_lit 1206088402581996649686174771903750243229579557381198275933332104000, nat_lit 6285286990018394993431048887882870923900850700065345785482056735000, nat_lit 218294763928996886313596656259879706068948080752675166320888604800⟩,
  ⟨nat_lit 53540245349253736218417901652606259155188044915048323653439233680000, nat_lit 12580891968359401700579081919380842385321641779260979401868374650000, nat_lit 7841639773181062241664050579371807612651949720656784741142176145000, nat_lit 607487896650662847017403338412275584054229822968877727206693746400⟩,
  ⟨nat_lit 29262737739339209171898490003377211836554063402493810835929752210000, nat_lit 50844087705606870360563077960482157118675562110568870092442632000000, nat_lit 6560817443541946830349883986627165185515714808159497175294613117000, nat_lit 611198269081799727630653723751487923374305370654644592168097770200⟩,
  ⟨nat_lit 8420700371502688353622159303744920614891863210908359193993595009000, nat_lit 1561412434085215343345465964189037064571349845784080785393231339000, nat_lit 780771039263994374942210928390670980365905024999050182663267624400, nat_lit 45644911803660477080470214231782368176200705728172426801958990480⟩,
  ⟨nat_lit 25771780593280045435468104141721508304129220859784812655000711450000, nat_lit 21717756092530548183623848729469699848040003496411586257570297920000, nat_lit 11636736778889936173727001609905984937841172479878364631707385320000, nat_lit 768938631447829700375480153009353353018867405071932105671796431500⟩,
  ⟨nat_lit 5227524223775071252212155300920186730475667893555437029709444081000, nat_lit 28730225208099764118257304267950515821443744118203776582197427320000, nat_lit 5676310565676014055774386239529810348558188187782713853332585187000, nat_lit 369245657443643091202769350956910213911524405589577884632470866300⟩,
  ⟨nat_lit 13181806524513853910358197196797716462607059733560135477234579920000, nat_lit 31530786686013560310429487932843258289498989715196651267388595960000, nat_lit 54904647064455931489784209855710001438734593516942918688132009530000, nat_lit 139265447594597900853571211791446175442011905748165112580871924400⟩,
  ⟨nat_lit 58404321539099932570722785516354295156665762904742521694254670870, nat_lit 9841637359042399677280638745025910491339558501787455088167087335000, nat_lit 84805129031739475351881304900035053543180722397460526135784574330000, nat_lit 44913192168686067317804565319545053362444783273272133672763359340⟩,
  ⟨nat_lit 300195248319713099493535484748804683756813453528936567928076955500, nat_lit 27226008137334265716855489253607999477992134892793124014127735660000, nat_lit 44786274829306885750125614395306613165235370537912774024083132910000, nat_lit 138530168785762931463538317951699038658737049377099928594753309500⟩,
  ⟨nat_lit 12421601326685868905486522225943686907013412587427785602321830700000, nat_lit 32464284821463137004017375945116111164782784161226329489447225100000, nat_lit 45713880077256052500882447889318115210108219085043710222867776390000, nat_lit 490137557956737690365801631867548658527233386172988349498830597100⟩,
  ⟨nat_lit 68405632945365771289439693379094721243715108500690815190625053540000, nat_lit 1376345042083642557036639540682168590382636370491498808685462800000, nat_lit 24428111110741977112836353413878588911899149170008510980620233170000, nat_lit 197213937925013782653212861556438016373823835629009841021210024200⟩,
  ⟨nat_lit 1289109503404370620552246359421428883795776158199673614625859824000, nat_lit 16802341155967430989931669165413324187230813762102364445363773830000, nat_lit 81258545383784423007385852795019540696150721175779527563574753700000, nat_lit 48714828775024371350880300149836632256388554107876968682118090620⟩,
  ⟨nat_lit 37689503751450507395760585535029891757989046469829804505937596380000, nat_lit 3165769371536806059516934748426888327975652022970440385109670239000, nat_lit 14280898303316335556099859575413686616712353815999228835554041260000, nat_lit 413808187255688066123547227558300001283050251362412798819290553400⟩,
  ⟨nat_lit 15905576870995522632884428084980948041064483031746847357422634960000, nat_lit 67519273236175141067502381341183842727048985735781179206015879530000, nat_lit 4687997309684717326365037518222814464909342903528464824968203310000, nat_lit 356306559142853946609229865671283408696330482380784207205862368500⟩,
  ⟨nat_lit 13211783669908847562775075015719345418035653807589894336098457320000, nat_lit 3268338546257972931508319938712096903308379685790553507397018686000, nat_lit 61442847753805449677082404873421137643783653922331773998304676200000, nat_lit 418208053066849335757309608738054392510695157876626531851315819500⟩,
  ⟨nat_lit 62188154316643809495153886601868353040333052587697868471352041300000, nat_lit 523797139601867230600426920287008996711710770817542889198177748800, nat_lit 35973458724867697413425063521825553429520948712441075386352474280000, nat_lit 58322089877952563869679716105691576949035962123387702539063770460⟩,
  ⟨nat_lit 1742240919479620116464308560756811404948942468250330746619179174000, nat_lit 85844112156318770230522127476852963751443521738889807354219308420000, nat_lit 12401246024180066063320622610491867975179138029944087732797167160000, nat_lit 27926955438760487385443936485323130480079874544467018557730657870⟩,
  ⟨nat_lit 20372975546223848836024577085056212455974234359115290913603633110, nat_lit 8552145888456492249045594287848515534517870779402907967107825109000, nat_lit 6472404580869564749331816016482149826204771639899710787130867729000, nat_lit 42373227842373223439201604350473986958517406446106045561238584220⟩,
  ⟨nat_lit 1318866266716929478368763530284037785995750803011140235319409763000, nat_lit 17768361175246050571170015359317047624940480387020022727986540380000, nat_lit 1229786656299167716071636171949928960872465169983062479892630318000, nat_lit 75634538012543425603132712515829381714914383122079824246879563930⟩,
  ⟨nat_lit 57615527238653557624990642652979149544566943634531183245693927770000, nat_lit 12286698127179521036030429101435076020673362490372091615509506740000, nat_lit 15798202443751034697238923722850217700235782269321957926367910320000, nat_lit 631700745732873478113661577284276693791351890051473530077603014600⟩,
  ⟨nat_lit 1330011953053266795756746529409777645262244459741774155485184647000, nat_lit 159338935421209129052092012226230719514425215146619458011018028800, nat_lit 7876723209230800100146845607205436169554010867939061813351940467, nat_lit 3840434639046549908052779599954966467643080624346027933086815763⟩,
  ⟨nat_lit 55370130254602378235258403083254730023032527408680724024615534430000, nat_lit 6618089448962841955436050093575000597979133416717029615591724706000, nat_lit 3538345627368971082839967111975073214941276070874246430790083362000, nat_lit 358507199829935576519018835788240588285879359226677534609446399500⟩,
  ⟨nat_lit 50942204977743364864512525063914366674596920214059727187690483090000, nat_lit 30692242270106235575547725433346685675040733820739217956542052730000, nat_lit 721307030809583761194665637569157320125531918739961243609955436800, nat_lit 201659726546573931508090831437878895478852960370694199976452137500⟩,
  ⟨nat_lit 5928487602400647144964553290628783245113248194601536258941397092000, nat_lit 40016997589826427130082595993986436561946829181482961944811318040000, nat_lit 10526893505752602926238278661576639047090545014164745145791811110000, nat_lit 555905292282655110663366098686514922299643356182525044358741821100⟩,
  ⟨nat_lit 57494338656145029852946817398183907722726277699693724982651462450000, nat_lit 1167336044082906252182609330650915950033716123819035471651870822000, nat_lit 27927767582839168846063516589042561073090601933936959502781622450000, nat_lit 235674520553208688104426155786313299118787190857335647343952606400⟩,
  ⟨nat_lit 19905113468565330870702001141641817417605336333447226344096295830000, nat_lit 43461187363748753617179325009771271022865685130461604474040279900000, nat_lit 30947266815150358141443537296592897942104202112090940673048490500000, nat_lit 534466001047961566203117393131754926882394354316253813614685113600⟩,
  ⟨nat_lit 24366149291471986322078845809422507751169089414719121978139228840000, nat_lit 48051764333820878852057167872637463287620282998575526167961298470000, nat_lit 19153194280372994269065296961918584859131084279728050971519238570000, nat_lit 647562800376600610609452339016611949805303229793516979108316603500⟩,
  ⟨nat_lit 1043459556552599474309807921261546040271234550281729375520830991000, nat_lit 54155108818775552850010417663212754981398850389169590676086898870000, nat_lit 7945643060700702207038856490883058758513586855376970820745779609000, nat_lit 214689755700968823504978029704876078775133148263161396043432095900⟩,
  ⟨nat_lit 29701317996618373127422188449330098358519254384840363690176466790000, nat_lit 1426238728033888302283339673948023409662821064810108300493707431000, nat_lit 1624806013188638398215283470716073799370375626028759802591055236000, nat_lit 91027340377699185033990597419432782367405547502236497701011168910⟩,
  ⟨nat_lit 25529820241234070275447037647308164841361467237592938842364557080000, nat_lit 56555830174786202714659825243318971822493656546596858450810753220000, nat_lit 12821366348095190036352008590908711546755072912484205505169671660000, nat_lit 322964882918195439411878793125189849542231485646940074428661066900⟩,
  ⟨nat_lit 55638911967872181528860569766475834859813549056821180253366820530000, nat_lit 42198251700962483364981464143257209383203998847802462506453544990000, nat_lit 1129840545776684875749141133177514541946164429668879361672313174000, nat_lit 72660967631983196893147417613940408182145848144067274605871120850⟩,
  ⟨nat_lit 5733028510656885514302289725307130901341518480911882832195521670000, nat_lit 619614174636858899143345982905863252194582800539139312971133843300, nat_lit 93618056004063682919857984006598977433930993698519262650503293870000, nat_lit 11589396106873747087118541674674547028292610049023523469195444990⟩,
  ⟨nat_lit 547405816365886653884416740744322841944421344734761936634143163400, nat_lit 14701074389881698026616301283227988253808751593650970693838485330000, nat_lit 26890599985433443213506913404837628615099948875343160826209316970000, nat_lit 112610518656623725551722311175570455006369615707585316252977744900⟩,
  ⟨nat_lit 1090488408590303366979569440028872851425224562575370829727171266000, nat_lit 11195488590216044173878478735276280847920376309739860937362244420000, nat_lit 14781244550762773985584235833822982116537558230851668227138718560000, nat_lit 160567967092328344407830700741963549096422928180299765941308894300⟩,
  ⟨nat_lit 29529299085887485665688465488809073653779106855074548636258641220000, nat_lit 1414617610864711728524494473424185401592540831712614578160806500000, nat_lit 67829045958867504018611288901373367772223287179006260393585646560000, nat_lit 102527307846014828136785043875102207941384978967930153541043604300⟩,
  ⟨nat_lit 81014181310769976365019856965991471039275711627379419373131793720000, nat_lit 967291552100308610791882206560688339295624215018398576971340490300, nat_lit 4678296879648255007440047755588147511963723511102385979359537340000, nat_lit 102117481412718997904903763583563256129573889093622404068326813400⟩,
  ⟨nat_lit 5091199715494668815344767585787984483893169401350585511060130587000, nat_lit 10177027287003864687156631914848326225290849802658641655465282740000, nat_lit 14953266708170753707782223208010831110682389591192103330085417020000, nat_lit 254972354954652071163946168124617951901447977547756708588542795800⟩,
  ⟨nat_lit 7308520360662558389765319672161997973095453739688908839495471079000, nat_lit 12431529522715741476831350983039086286854363783929499411669675610000, nat_lit 22109657438300859003745274631710023219511295050743447015159234450000, nat_lit 453769162452647255264121002478091496921633628456159154746268330400⟩,
  ⟨nat_lit 5106956563797829212111753842685167109106221531721050004592726014000, nat_lit 17830594438034218112972825920552831647494221195814034814707249590000, nat_lit 29247958376481752509130185761042578780333701468680378634661928460000, nat_lit 551275005732808428847183055688835997995985760735544568565281091700⟩,
  ⟨nat_lit 7688057777084003475558663298599751283763446557726774798679030157000, nat_lit 5939299406042703646372971988243640894270675620741962782673369981000, nat_lit 86357104460933105659601496470409342628480266715331384453715216640000, nat_lit 35533837658635335056093857047499016085002220714257531112402245620⟩,
  ⟨nat_lit 4494350935392333161563176414081064182910948010805717730114630720000, nat_lit 35777733507431153807105608948712103132065754976813503194200600180000, nat_lit 43801036655589216292816475764741073214923186097322573457821294850000, nat_lit 573847705447679837361791931661727209242442684869028105526436646400⟩,
  ⟨nat_lit 29352695904150805203283032704281541364980077124783416286002653760000, nat_lit 41277279865063922068496692909684094240559257101061024727589168900000, nat_lit 27638028164948739846243445370181175898068651407709995594077807120000, nat_lit 425290128137329476224965084266724317628292800140341459076576574000⟩,
  ⟨nat_lit 1103612719900978176071657941419504145124210356540191392827564306000, nat_lit 1089512613838024041347934985972315962190953332626768203632642126000, nat_lit 12480258739270937637310643376116960597158816724089036702660349800000, nat_lit 48541580847044633068722470343146784922503175220387016463647408960⟩,
  ⟨nat_lit 48499487381536081177919245013218726375207963660566085356923235160000, nat_lit 23505467506370053670830637441780880267159576541382943228931992050000, nat_lit 13985022236801184476520693039507084067993809492359274963081607450000, nat_lit 649116561071251460770805483597539162087416226692951758121610739000⟩,
  ⟨nat_lit 77877749714813116992788667704471278267159020314891901005639854170000, nat_lit 13634837391555169728189592902162760893571827633618899646631066300000, nat_lit 1208125917843540608964716677729480616649001618402007816930220718000, nat_lit 149056247484218733403247465329968918042820939648692609201812317100⟩,
  ⟨nat_lit 5641315499858742246424072767634702835707528875774775420665222509000, nat_lit 15390629063057442201297753639215908997827804414571438870630906960000, nat_lit 7550658131443616456907306342672657382180259734605296583575308971000, nat_lit 353215468216813341105733949540863561384204384862241807755757898900⟩,
  ⟨nat_lit 5905159012517649986986683186876269321454598241325731727019619370000, nat_lit 36900904284288887160350993809262848637134623204249160515149777790000, nat_lit 52309634285510187053964467686264228393375868128387723510233195580000, nat_lit 370437568114479362692577405632925631297135793219809004782644209100⟩,
  ⟨nat_lit 13513916450972088536306473524301753979965208989412114968289097180000, nat_lit 65835349585087986163759218492480333237177482891506618853560553050000, nat_lit 13108048556281621198917287804883066894352935432018535138914591170000, nat_lit 564127490875684770144509494312484357525106348966414445889538647700⟩,
  ⟨nat_lit 80519192800771303932500853940567126798168008764072105341195357620000, nat_lit 5394751507274243479739401407213032705474363330930717222921532692000, nat_lit 1233892811437701231441267099014786743494762015063244855723939977000, nat_lit 134614705899572373537418103723289294697107571651290914741896266000⟩,
  ⟨nat_lit 19508002647130135057735372069299652724698936464662762736886950500000, nat_lit 50864945423142919415659385702737675902428790067440296560029131150000, nat_lit 13039520428697102758503936424292252584493889687047118872281618960000, nat_lit 719812351589691840923842978866303332780713204279936446637666669900⟩,
  ⟨nat_lit 1311935607495536471137827486411331834561223613646946241180908067000, nat_lit 14325884904607689147046539372839648699323817022473734337541943490000, nat_lit 60555972480278585279828885845837643828553134166279434373468573870000, nat_lit 215138952938320016890986097730694852458765816323613506555918617800⟩,
  ⟨nat_lit 33228864259496231955907698431777786036624602574189813808749956680000, nat_lit 8655624343532401514773294588779425581663154017455813632388901408000, nat_lit 45794654990926170720067091037848248456258523852252859305494330600000, nat_lit 610328579148663092037896395957310883357098014108833433758670125000⟩,
  ⟨nat_lit 78420123482231375621825587007540220373643286330958480897099729830000, nat_lit 742121223124903174741631783713390860851758495837687878904564048400, nat_lit 698257778833299194225004713994714766588879314718092529230396531400, nat_lit 36520290425753325606715910306110221723635702029398028069372287770⟩,
  ⟨nat_lit 21510190940438054367354337675493551209307867009721447324551096510000, nat_lit 19436587190962796266284644774344829331309132702292369575769311320000, nat_lit 33914145922353486949244671651696920877426475300259308653984370590000, nat_lit 855685244155194233945857028392922780709951027583742907676132246300⟩,
  ⟨nat_lit 10070637477914551017015248092301019796938729298318988346404957160000, nat_lit 15599099408905957298569453618742483815113135855273243449516871590000, nat_lit 73735041272774390715266615619910821633697367347284950737227322950000, nat_lit 131708460278648775637018020220641600538577376269797080361588056000⟩,
  ⟨nat_lit 5736482090101584454698612458875459645440606513132026861596135305000, nat_lit 43551040254220047170186484212971768032260023953792805320213305460000, nat_lit 25853881619424092654407169296713419135529937462448769435853298890000, nat_lit 529939468673056128905785491638197179297594901596043160159115668400⟩,
  ⟨nat_lit 11458564319599062045104029090473805430623803923353178799521599830000, nat_lit 801750508535345183105339991064104263057129120284250429381819283100, nat_lit 24508200392763933221571760315773190670205974925080029004638372700000, nat_lit 171227432217231491886192621884166163986854262490082125755109561700⟩]

theorem jS18_eq : normJS jS18 = some jS18N := by decide +kernel
theorem jS18_in : all3In (10 ^ 68) jS18N = true := by decide +kernel
theorem jS18_ok0 : row3 (10 ^ 68) (6 * 10 ^ 68) (10 ^ 64) jS18N 18 0 = true := by decide +kernel
theorem jS18_ok1 : row3 (10 ^ 68) (6 * 10 ^ 68) (10 ^ 64) jS18N 18 1 = true := by decide +kernel
theorem jS18_ok2 : row3 (10 ^ 68) (6 * 10 ^ 68) (10 ^ 64) jS18N 18 2 = true := by decide +kernel
theorem jS18_ok3 : row3 (10 ^ 68) (6 * 10 ^ 68) (10 ^ 64) jS18N 18 3 = true := by decide +kernel
theorem jS18_ok4 : row3 (10 ^ 68) (6 * 10 ^ 68) (10 ^ 64) jS18N 18 4 = true := by decide +kernel
theorem jS18_ok5 : row3 (10 ^ 68) (6 * 10 ^ 68) (10 ^ 64) jS18N 18 5 = true := by decide +kernel
theorem jS18_ok6 : row3 (10 ^ 68) (6 * 10 ^ 68) (10 ^ 64) jS18N 18 6 = true := by decide +kernel
theorem jS18_ok7 : row3 (10 ^ 68) (6 * 10 ^ 68) (10 ^ 64) jS18N 18 7 = true := by decide +kernel
theorem jS18_ok8 : row3 (10 ^ 68) (6 * 10 ^ 68) (10 ^ 64) jS18N 18 8 = true := by decide +kernel
theorem jS18_ok9 : row3 (10 ^ 68) (6 * 10 ^ 68) (10 ^ 64) jS18N 18 9 = true := by decide +kernel
theorem jS18_ok10 : row3 (10 ^ 68) (6 * 10 ^ 68) (10 ^ 64) jS18N 18 10 = true := by decide +kernel
theorem jS18_ok11 : row3 (10 ^ 68) (6 * 10 ^ 68) (10 ^ 64) jS18N 18 11 = true := by decide +kernel
theorem jS18_ok12 : row3 (10 ^ 68) (6 * 10 ^ 68) (10 ^ 64) jS18N 18 12 = true := by decide +kernel
theorem jS18_ok13 : row3 (10 ^ 68) (6 * 10 ^ 68) (10 ^ 64) jS18N 18 13 = true := by decide +kernel
theorem jS18_ok14 : row3 (10 ^ 68) (6 * 10 ^ 68) (10 ^ 64) jS18N 18 14 = true := by decide +kernel
theorem jS18_ok15 : row3 (10 ^ 68) (6 * 10 ^ 68) (10 ^ 64) jS18N 18 15 = true := by decide +kernel
theorem jS18_ok16 : row3 (10 ^ 68) (6 * 10 ^ 68) (10 ^ 64) jS18N 18 16 = true := by decide +kernel
theorem jS18_ok17 : row3 (10 ^ 68) (6 * 10 ^ 68) (10 ^ 64) jS18N 18 17 = true := by decide +kernel
theorem jS18_ok18 : row3 (10 ^ 68) (6 * 10 ^ 68) (10 ^ 64) jS18N 18 18 = true := by decide +kernel
theorem jS18_ok : all3 (10 ^ 68) (6 * 10 ^ 68) (10 ^ 64) jS18N 18 = true := by
  unfold all3; rw [allBelow_iff]; intro i hi
  match i, hi with
  | 0, _ => exact jS18_ok0
  | 1, _ => exact jS18_ok1
  | 2, _ => exact jS18_ok2
  | 3, _ => exact jS18_ok3
  | 4, _ => exact jS18_ok4
  | 5, _ => exact jS18_ok5
  | 6, _ => exact jS18_ok6
  | 7, _ => exact jS18_ok7
  | 8, _ => exact jS18_ok8
  | 9, _ => exact jS18_ok9
  | 10, _ => exact jS18_ok10
  | 11, _ => exact jS18_ok11
  | 12, _ => exact jS18_ok12
  | 13, _ => exact jS18_ok13
  | 14, _ => exact jS18_ok14
  | 15, _ => exact jS18_ok15
  | 16, _ => exact jS18_ok16
  | 17, _ => exact jS18_ok17
  | 18, _ => exact jS18_ok18
  | i + 19, h => exact absurd h (by omega)

end Tandem.QuadTable
