import Verif.Lemmas.QuadCheck
import Verif.Model.Tables.JSB
/-! Generated by tools/gen_tables.py: moments of the rules in src/quadrules/JaskowiecSukumar2020.cpp. -/
namespace Tandem.QuadTable
set_option maxRecDepth 100000

def jS14N : List Pt3 := [
  ⟨nat_lit 2314847027026112865391708475310015600098028690022433700039656812000, nat_lit 6376915332767435108725560014399909053452431038396633273200515769000, nat_lit 1228446348590763131603645210065262565222695777250501614753783079000, nat_lit 32090472646664138207227979386901509763475680917788585243475404660⟩,
  ⟨nat_lit 537474000089088600913536677187687015994016524961752100316373743000, nat_lit 652879639298176492257813023056114460807463204125906004702029310500, nat_lit 4775209726418479486665573310473955197793950354806553213736217242000, nat_lit 56905174604372444720401439591902276618900762724412739604769031390⟩,
  ⟨nat_lit 3115989758170841774160794325157245017027274877341367169488929920000, nat_lit 212266791016860652884848961310203808112129117894811970439233608800, nat_lit 4201499476244786098863371284547706484791729796075843023809882014000, nat_lit 85375758235780589238089527394552861914264773729362734206770677190⟩,
  ⟨nat_lit 206035396594734652709429880946123720124607553224697186970741053900, nat_lit 5799521781439219139554358606537173196559670693791149431570005696000, nat_lit 3804659890132598170937676391484831262112856869758136328289696935000, nat_lit 29334412344111252891642795870920495456026383489792670439291827520⟩,
  ⟨nat_lit 1251577417701054359693483417438351698216623057147794978518348559000, nat_lit 8466536240681867133596292046276376586021496105415221992707942072000, nat_lit 165180366859764651973446273017232580612053726698318930701491938500, nat_lit 9789625372255211115446672243450593976571918885713404875915873411⟩,
  ⟨nat_lit 4051376144723313156173685647131445296578221891403890704995115691000, nat_lit 217847444708801951093570122827077066726026671746404408971050603700, nat_lit 409235874784377596520949901820367214446599152589980082788815745100, nat_lit 32393002152262313876202879222541784966512934878057496508216256920⟩,
  ⟨nat_lit 1288586023375525130262226651746014042382806971575579189821570435000, nat_lit 2904995416595343975437260314706194050119530160988145386305693577000, nat_lit 3723360802526064726294122198415696259756773789356767045612710893000, nat_lit 168716262995052121044587783485712702378816444315040025273534725800⟩,
  ⟨nat_lit 101738001818652095993786204874183498081722926102818627066578617300, nat_lit 3983185570060584789957574851958006183489365103089922073136500269000, nat_lit 570579132261820912771613286048113006840715447565836947265963596600, nat_lit 29702908607196549646594487166217630147157275567016966141286539560⟩,
  ⟨nat_lit 3531857466510768229751930196421622417936732976719803507581979362000, nat_lit 4088186256818646589951443108951341773398008304427638341617869056000, nat_lit 89640104304326841586627257689646783238554473073085356445880647990, nat_lit 48240063708294444544531635668293120158378395563655837260167672630⟩,
  ⟨nat_lit 768787966196898809632345658763279192271380812118137783650959647500, nat_lit 1243032687310529988247248572037513598725608437976567214673499094000, nat_lit 7392133170763374770437780943905782773521240630655510558472808402000, nat_lit 60814988676755862767781260914945997408353434696052493286516546180⟩,
  ⟨nat_lit 1504940390832191201185598080342461844779508517079663908812444134000, nat_lit 35089865937563594802910844740564657391328186380577239979720382650, nat_lit 5447310180290130509510945743479744224579002273026763789174110379000, nat_lit 23977367769485892030377231462765336854731169321190942515088536570⟩,
  ⟨nat_lit 5610432592244580363436516212949126436528236029767056361098960897000, nat_lit 1246103752155857658120570930170420822909289485710195610414972857000, nat_lit 194758953297088599987601221544474325095763955341708418491353118500, nat_lit 51529238878568441129759690954850380209428420699493250725537305470⟩,
  ⟨nat_lit 758314024851475913206961125794204902636163873530214855590095295400, nat_lit 3525491651471062247453936661833351400626135389882302189330966430000, nat_lit 216443055479487102567928528293341611864792236641709617948526831600, nat_lit 57662135030036252935703218320718411654744685242165788604109720510⟩,
  ⟨nat_lit 4129579494992036065284757297791763476265268271465660261496194751000, nat_lit 2238258302895006879538630141562811439537543687968906386714373634000, nat_lit 2880142891247817825502252214808979061277193644991661401091854567000, nat_lit 62448884400297472414267108250634579595589270307963133102837039950⟩,
  ⟨nat_lit 3031876503493612326727528213223164241708576328939310347189085098000, nat_lit 3540652116195430233549012732781651143257112564622372094514123126000, nat_lit 656655284017813807078884774414081931195899324529040005895010622900, nat_lit 115756594447744985018901923072092587691134497386311366210116871300⟩,
  ⟨nat_lit 5296810728804705578244171000901572098749075747818229620859564529000, nat_lit 51592564494140018851194620950365500282428308869962281035332995520, nat_lit 1116608367604902422855450634124804567481668207789065748119234022000, nat_lit 30648229792214952943192402835739978014405817338327007534214909940⟩,
  ⟨nat_lit 734295689887578805943054911296563874754949783031990645967048808400, nat_lit 5543670382535760793424975949308037149682272571806589925833046092000, nat_lit 180283197626421552048851862114453847696428253259154248515368457000, nat_lit 46184633950971985919171367704051894148817227602789203081425997920⟩,
  ⟨nat_lit 157780720918051774705669665638601785116794964102619768610279978800, nat_lit 219242849367936555814739920907486867809738726481222018773354497700, nat_lit 5728671765234393719015715567969678448781200253327491735704207784000, nat_lit 24235716069232253361901056990391052386030449905205545501843256990⟩,
  ⟨nat_lit 2382122812603126609670304510969102953517417286996515406196196252000, nat_lit 22469959711374645512178362424019131633088348220192251878110878600, nat_lit 6197777303998556649577253639570072363839326480306669114839947008000, nat_lit 24007370842762911717218602763812506019069160419350407207635576080⟩,
  ⟨nat_lit 6446902576542700612442177097247746170135494005087289651410007683000, nat_lit 1115014438347279396411968682842842715524119779574915872932522349000, nat_lit 785023627593555964987275853959373690061777316825770291083133006800, nat_lit 95161013673963717984263790260671557977404980678221920578471889880⟩,
  ⟨nat_lit 841398463725143781934846647173040721605377457669888330456296789700, nat_lit 242749181883653737200827399591676316561679234693674627713104036700, nat_lit 8700960271068334505017294960653671814908099335367452404640524208000, nat_lit 21108022225077162666753216850035554020725450757215593322517770970⟩,
  ⟨nat_lit 2466507485005684046385990564007221550553747148452799540477340590000, nat_lit 1796293279219591844449740009651561737227416199432152587339909645000, nat_lit 3904552293324727736875281056278576558056767305025945904601222751000, nat_lit 126131233161928778244525256300816164129005532887479835512518536400⟩,
  ⟨nat_lit 261084188446661686741097202068563340452195434166473726783797650800, nat_lit 2652492895548902855684733682846376208298874867552502992450781845000, nat_lit 3252997777309938591221275667662866467951141607000041325657947580000, nat_lit 88875851845196699304991533991038940933079338669507859099821349980⟩,
  ⟨nat_lit 5531219661927219938933453739777369321743705458258548995650226179000, nat_lit 538613917809408819724210478215541588705465562994321879157517458100, nat_lit 3665124924769789387750811183913310909241784966491177744796882165000, nat_lit 52359049356362094205824481161832098795443884146626128184811980190⟩,
  ⟨nat_lit 7599870156846872335968242904114881314753505633060149794021214806000, nat_lit 1555388209837724137190501917256185817551257446189525362383647673000, nat_lit 685363178586990071011946960385915935147094944949573470138378774500, nat_lit 33524633583597742438023487097022155234902728694899520576890058620⟩,
  ⟨nat_lit 2519645435605217807011174826841318611180537035411224636028331454000, nat_lit 5176347330744237305802396913634922352313750188324050399094734832000, nat_lit 711353818422307940436221554267446780409864432027720157255350256600, nat_lit 101016100420780146951844972932282340022248178457054848160158545800⟩,
  ⟨nat_lit 157540039458689585650957771175726985847139074097720738005161005900, nat_lit 8817566508392838456088942190276485700634360799572320504087138238000, nat_lit 773884627128149504399205632653345254648875729577306893680475342600, nat_lit 15060263999359766854570857230136564997959516351769547519919630380⟩,
  ⟨nat_lit 676854850563556574838258054895050516318187349304008565125410057700, nat_lit 3566638688934275250946439970514857095137724916475514773132120831000, nat_lit 1104497711601330339664849682726284445226625499338882185967481477000, nat_lit 98917473789827551140689847268254025661423327197449238708278939080⟩,
  ⟨nat_lit 101087438907247112917964816071013272331044027707544904440410297100, nat_lit 1359014760786207656480969358403650238696940989871983839492470164000, nat_lit 3691718514744732486189924763505383212384748216192195221163674103000, nat_lit 43769540116748532731358684745255135310614583314970255615917419280⟩,
  ⟨nat_lit 3243476019864201489065812184826653819830788323572145457739151631000, nat_lit 220328771172242811560355873406489703164111450320404734786123471100, nat_lit 1299741638927300699140489792371515702858232452551995630077092399000, nat_lit 67213965245551660266067750757025651869760606788904052987768270070⟩,
  ⟨nat_lit 662322780436768205371224932812727522167858367651486148064825977300, nat_lit 4227112063474164093750575741287562003940865245548539421913516144000, nat_lit 2261372232864995846542969946389292715689070262161082225676339452000, nat_lit 134766186595210693608949443606504482933568842408167223559694173900⟩,
  ⟨nat_lit 874357106848783052380412489292447679946665627556539070914136838700, nat_lit 1640156529458230605500930345170778383300490328610389851645173620000, nat_lit 4103544579207127144723517095095500361011019996855836937189956378000, nat_lit 122184775176204105577494305472170810719028951275848654996839215100⟩,
  ⟨nat_lit 7352761880631612630863031485601543060846303455494063809782736784000, nat_lit 949956072746624412726516279551106124026537390592027539960220206100, nat_lit 86200770364083731816056316634160212061605720411507221959409444520, nat_lit 24921115954264494985393801298756510177754592960489230036319220680⟩,
  ⟨nat_lit 479635817999331066617746294994940966055379827256793563366701832400, nat_lit 7438684042197701369940380150386310058751557118574694710326903778000, nat_lit 59854143044335544283765829479003417314126072040237390522242617690, nat_lit 16819810871614363384819341520449127461846098402491303549995213570⟩,
  ⟨nat_lit 2085830834781613766127714322655212498881455124813541227230737827000, nat_lit 692522952566658905204016080172248145006320229786075879381614573700, nat_lit 5449968530492212633396278598692169848901133442726813564570352347000, nat_lit 121161261696571018279512879252165977248945499912787861488363328200⟩,
  ⟨nat_lit 2344779503512194999302825721510372956374755816269304503591659606000, nat_lit 4872538636109702874960572281954142023745418369158044529949773323000, nat_lit 2531111171518042045654405471361164412129849055917160936380176292000, nat_lit 86107744579666139520050749356763546222264290942919912109012769300⟩,
  ⟨nat_lit 630003307630449115864631910683440498096423366516447760723079636900, nat_lit 42929467446259148299805648031133593064674122085194988198174715880, nat_lit 4184562782709668646941265617057068168444608618904225966389674011000, nat_lit 25367787463388294734669022379100517787944105891970049369817608090⟩,
  ⟨nat_lit 2934812539555347264596567777738893549207457366927085840665178416000, nat_lit 183274848676739684264646156186797005361053933852194382152914743600, nat_lit 147175951955382566178654248574929597495785745980485307961646892200, nat_lit 19164810032391147161771766259967761523897918056271690397301901830⟩,
  ⟨nat_lit 7599329214651482764346027020781782107756391825968350617034697571000, nat_lit 198406883054674211554767237107849884446375715639611881855406614100, nat_lit 2039689841975935145943061390875110016266641358386945039663957551000, nat_lit 19434616879279233543576899845548124332145022136079121441626892840⟩,
  ⟨nat_lit 4229152513035334882745645039802459981084019340266032003617216668000, nat_lit 3572968071805251911426139658916185984506182005943786006611351303000, nat_lit 1534373188450013983278161735117337545202395364838196128467333260000, nat_lit 89732676209481263249784859179634795714408841870617437784182210990⟩,
  ⟨nat_lit 1952996613722126732559306284078788823388520385298509452805313828000, nat_lit 3796956166947324995442642194591186265374902693908342592051269409000, nat_lit 156402386102115886923513668731090101030110132194218439649056763200, nat_lit 64133989035130228329400686197324769254352068416106762170723106680⟩,
  ⟨nat_lit 2554023297048646137782895135485193348388548369101687892960534514000, nat_lit 6997029342998510024736650681014931013968827998284120404121203777000, nat_lit 228637841418996550255796944534526431419462212221856759845170823200, nat_lit 30755165882080863182895850840846691383559839429390904188041748810⟩,
  ⟨nat_lit 5734152355148321887826601668129275639034868040293141537481274607000, nat_lit 1221715917822544460738962797486736413775527620777173968680800885000, nat_lit 2381074431796296765762445065974808580346002821682319572915380920000, nat_lit 104243047844478582972708629201613444099585551412222732950911248700⟩,
  ⟨nat_lit 206401033869331926163793882083677227825438915789860477939999317500, nat_lit 2539037772698731893670405765344174273667377919764291105329401253000, nat_lit 4926804694266224243187823594517726378935052711929237076435535749000, nat_lit 74656184090866710434080517982579639164890229957160617080591994730⟩,
  ⟨nat_lit 550608547956190044151598003664132538057353653316887925675959445500, nat_lit 2760503046384493630228461924053818349036236982010486624245968204000, nat_lit 5720636575532214626374651686655644363537077299520501521875330902000, nat_lit 90724725754210352555300489712518888070829397581675945564446870810⟩,
  ⟨nat_lit 2857638474890122615662508537165732153995652106074510097662438366000, nat_lit 1023609731683444620668646141412667765182942989908437118043295241000, nat_lit 56515524704310507770204267246380358244113686768114907303516716900, nat_lit 23308712885599072455091901803980239131042403175327132464106232040⟩,
  ⟨nat_lit 2468322788679129892345874748199805809345075934290246223970982557000, nat_lit 2188737401730881139071573325722816720512638696520245015247920193000, nat_lit 2339990084555604375383361446904418572010115995569769534328293289000, nat_lit 166967486950485950194157912477936803617445694984945240977996237800⟩,
  ⟨nat_lit 8852535053425467248850044115963224435013570123560147552120269047, nat_lit 221309661075186304845981887789481990230471618444036369436886343600, nat_lit 1139054854702460853219657788450647169761358294083514032929617498000, nat_lit 7249254070854169798367568986845409060095236592846063035853098633⟩,
  ⟨nat_lit 216903489800544724119300711141415344585671233600546571165567087600, nat_lit 7720208858823528189927867831882546322166063516786215632829223126000, nat_lit 2042914693477058017162701243816152508176856233678729109750948385000, nat_lit 9106711592202005077189578316402543760425869049985572076949578405⟩,
  ⟨nat_lit 3589963815557755470085847299817151562760037317912439729740579712000, nat_lit 3143960859700532499393464994033379783841656707540871001099496680000, nat_lit 1420169848605688047952914021213351485328247819589328690155475841000, nat_lit 120079722897320443573078157275804407188353940581213378796138700300⟩,
  ⟨nat_lit 5868902336182354396358984095476487235697898796614696034866012366000, nat_lit 3423822397563585954968866360464191435924681340092759700431720102000, nat_lit 524751141331575938244837035733314886793553841178105941774750992600, nat_lit 44351792077485865893640042396889280117359314013128930979377253260⟩,
  ⟨nat_lit 5472218032725568900451444679029917696026716786257777790529605276000, nat_lit 610353313796986708588953447519310619730333044457784770415167578800, nat_lit 1890806240955967908952751494787158199816331302218181216220131538000, nat_lit 105904344702959903266835777142841494868407978228359683629083863200⟩,
  ⟨nat_lit 4565413948935505761280604704194210573119655039661499382566529304000, nat_lit 2063041863690924586538831516392359694643796277646642438051175610000, nat_lit 789047796153676257135060493833473501667266126434509816949269782900, nat_lit 117149688203477902941800307018322306261983552027517156733135870400⟩,
  ⟨nat_lit 3743237711564725197205922001149554410556276135717614970789484090000, nat_lit 3079331987427519188994319940539507388732525769789973061199050500000, nat_lit 2750824732788571704320497969081106896720249147488645157282457104000, nat_lit 59999291248047875039644626932847947715788818070105885069107914030⟩,
  ⟨nat_lit 151035213650426674294984271156557123430203620128716230111013128900, nat_lit 5141323840296039614296675806379530934616192514622083859780222652000, nat_lit 87993273367648045676392313317359742305161851645540681319004871830, nat_lit 12990818898381984678309951574923810472201063393191884296737738740⟩,
  ⟨nat_lit 201415402277444385287018928903637494159672826309926419645890184200, nat_lit 181412529339579335392367450367197738085989038021510005453128158100, nat_lit 205905402357748241399481788834661619425240890237451186890300460800, nat_lit 7772739079912418527771942145737521984902777747961916635773811379⟩,
  ⟨nat_lit 1626983910802257472304580272923438188109992817729076743923598323000, nat_lit 702920327111486553776752778032976624553536231110971216550939490200, nat_lit 251998983100612820346089658670498269639176076578123371405896470800, nat_lit 39939701149808174892400741657264148275978467221278576757267393280⟩,
  ⟨nat_lit 3228171731581155133222215427689562788667613943224027129781628684000, nat_lit 388513894616093495445849226255100124146177537323422714640291685300, nat_lit 5637859720299143871434779654538583589493051248096326519727846531000, nat_lit 66452690739587116954388769739940145224767783661684091475346581900⟩,
  ⟨nat_lit 187516097096412579044431840784273558086017435779507601993732033800, nat_lit 2211914068552564928619108798436824799536011990568359427907444141000, nat_lit 629553235480516278109151899252049677443319026373183786575214465200, nat_lit 40415819084214893030493127481721073941565110288512474579975914940⟩,
  ⟨nat_lit 8440232192908454874520439734958063206177625053437014991439352586000, nat_lit 41595973471324506194645322945658049764914857584148300175292512550, nat_lit 93948388840350232084671710191660718967785558377604763217990859340, nat_lit 5708294490749094199880702940799153211436829731007883444541978987⟩,
  ⟨nat_lit 312709291310256859145254342846587370215412763589065640928001092300, nat_lit 163943314828830731665641034606521632945545410460217900438686574300, nat_lit 2344913660312879464934007719751417011695710239097542932887028416000, nat_lit 29479500454113881820661018879811815032704265145213912418305532360⟩,
  ⟨nat_lit 804741001965851704679045914088093041224741934194175208445899662000, nat_lit 786892566757411843902583089834448330167277804749079086807720129200, nat_lit 1192894301413521315895535349917779606942629032012840111045016436000, nat_lit 70550817682030361829586939738823731752759346947222581887622041790⟩,
  ⟨nat_lit 2854247024134165439835121147475434492245392935385121692289423977000, nat_lit 4926735680301441248462941629368760133895538907709909330897089876000, nat_lit 1396479572112513919132584416395680195412695231838808959223851079000, nat_lit 96109258587699049631902825085635724398306772741515635299410161670⟩,
  ⟨nat_lit 1246040608452571716193078893023540410329625983002154162316116105000, nat_lit 4561291972384730569158561351597310559681160653341780948946771527000, nat_lit 4181733406040197367952751851840534472140748455338481193980785934000, nat_lit 24843786283068115318888853820294737683527434620691029371446910200⟩,
  ⟨nat_lit 4659538658257636048036344377003080931459384859854108909510171606000, nat_lit 28423215941936218436523976660639628328299104912621031742520156420, nat_lit 4326406094471421526500186736489934301736446416615478528578733997000, nat_lit 24530775126923046000288255591657204057096582573153571800907549200⟩,
  ⟨nat_lit 5581406473971365248079944971661185835856138285671569685765980586000, nat_lit 3767195758481862382056615094777671322999172573614330760025299882000, nat_lit 68780854495939587787994587172536244352559306710816969233278821920, nat_lit 24697626115277064044216468778296345610351453770707785707985907910⟩,
  ⟨nat_lit 6789111702013534445504982026239504480407824406852164484107565072000, nat_lit 1031613732192879965977323481482829264917572481744054280418150100000, nat_lit 2171630311728097718147066925657456822374683908949376776444809447000, nat_lit 19798036039277757346828656252755158473382576023727399747044250910⟩,
  ⟨nat_lit 1914051925417945409856789012475828200878185797377793475541671450000, nat_lit 3244252655056700711942063063999956903949895946722927004330710835000, nat_lit 4118996074857081016378628613162600043091026443572258764319821497000, nat_lit 117416332983299759303623195841134064644778514226284944980503147900⟩,
  ⟨nat_lit 3597925630192762744027081693635335016488970531286206417877787236000, nat_lit 1454806934669920172530177725782334068126467546248880494119688679000, nat_lit 1431388949480785770355025484386760701016346994095645992178162122000, nat_lit 134096990474968545676237447533116105093299525599977513755553065600⟩,
  ⟨nat_lit 2190587145091670064945358080866922200648581707272656367137995696000, nat_lit 2465631457054916804104650601746177026581295664755364934704542015000, nat_lit 979582977687209327902225670945269846108609050932378799700756830100, nat_lit 159146124822838931402757535170333199669844927007127531898916683500⟩,
  ⟨nat_lit 48972921835833277766153248407810029138620993300908810462551439010, nat_lit 3867937328807340500758580996933174028773351514839214441487641551000, nat_lit 5193972942378433879872801865782829562391206329270211438167006709000, nat_lit 27597482000877738450573957427100888002266687944346358807939933140⟩,
  ⟨nat_lit 2908637587422787014707775927189270130062733480732007280278559860000, nat_lit 3033737210343642248829240362203437792181328565345229126188343049000, nat_lit 2756352097639389739453896904469138918302623429722750461201076043000, nat_lit 134975612334241384464818063337190716910970083538127613627834152800⟩,
  ⟨nat_lit 954739905995070855039679265495025949833412954422974823824108106400, nat_lit 8045007568505806052306702907700465876746775808667899549088033562000, nat_lit 918223146603531455884823851949780813228382662042641527058865379100, nat_lit 20273824895370495897520215149713473496239067658858104669561951300⟩,
  ⟨nat_lit 2336668911760918753539800615226963805127470744145378143177385818000, nat_lit 543226561573425511695047226731189043931650878907912500272611166700, nat_lit 7099729169029420014589022225013066857966864030413906218502513105000, nat_lit 14301714874771762696514187755299233523510078425872797791006852370⟩,
  ⟨nat_lit 4545645719012306869258471046847395306229220187519683986727532595000, nat_lit 5326031238265766897934000376074155416645347783956768538225129666000, nat_lit 58045721194557506621597445699266301494558192006356120760294315220, nat_lit 8790486280207989568781976426015157466101241763514044175261648861⟩,
  ⟨nat_lit 626864008170555794509949819964831809379335269231486809267746309700, nat_lit 7551016003109543882954505572331903222121657782092234244632066027000, nat_lit 1143367001062208527659072399358392898873560651610585923013657915000, nat_lit 45872971285689661679023188095441838026141190563357061366016273660⟩,
  ⟨nat_lit 7470346142203055724510515411242607817702477665265476019449346172000, nat_lit 749329308162297630406444131620322487988659786121628141977253029100, nat_lit 1226964622588806965779695003506257886453834990696941998691410199000, nat_lit 65008695713736301427494456221703070839468652218946637112623387900⟩,
  ⟨nat_lit 8898592406428813295213519698111034979150257703908909454089387298000, nat_lit 357808018883950726318285726121336515707581544205780574890252851000, nat_lit 693763758039472572737816350417224684978898897142463496584907340200, nat_lit 10202012956501937059562555708469063663002808323415080877102605950⟩,
  ⟨nat_lit 1416202530466463322490555774354285645143477214429153537237095103000, nat_lit 209369084440041125765970443229814391645736518176814962726354305800, nat_lit 2174199164968854976158908338169534108939827863073558092736027648000, nat_lit 69837625489515796315996474004771320776747632308913024144146824350⟩,
  ⟨nat_lit 1375717010361890375145071696215816363283052897279221149259716178000, nat_lit 4360189277483148024792478636622396172570351681727280117441774878000, nat_lit 827840532427925252753574569254153119669824774226121632093668254800, nat_lit 111392538268526538244560825655452092606211494522596688644951964500⟩,
  ⟨nat_lit 662206408975086003716976209133559856444634991777410807722409630300, nat_lit 606086286420015405424271046488637714470106991352564744504048224700, nat_lit 185253993105548657894636528384258816005709193082716989860363589000, nat_lit 17079377052265369894588026008500681466697762984749944024775015660⟩,
  ⟨nat_lit 530550031214626867538865450300122920261980602035071494668412893100, nat_lit 4036072622705165844346003778849397741572929272600036207873281135000, nat_lit 3752073411997015893492957859271537123277360875814467070973362022000, nat_lit 93362580896297364300970999493366738342268333664268439508529398950⟩,
  ⟨nat_lit 1110468202954785479187530551430156208252930365276330672137017474000, nat_lit 2690435536807952409860939976949951710606595878546533115951553779000, nat_lit 6015552259233110185067597191498421868363768380254965654407216790000, nat_lit 58168424089304102389414918235046350194887669845700023304595540970⟩,
  ⟨nat_lit 2078231193525116718302438415411230717296480984989060953298142390000, nat_lit 913188845957197148790798098281079575006350519102374266193050083200, nat_lit 907454826702175924136329417804211910294904204679723994262427449900, nat_lit 82677963685515812329557525903158856572223141395943914544606954560⟩,
  ⟨nat_lit 775946853094946479535714399539013515854680084789609134955300229100, nat_lit 1698109254138963385973592766605168943736171163976738518334081139000, nat_lit 168250431221210052163293901496961161742140232212591716662013949000, nat_lit 36538882423879434216637196290925064570814079663089625791507240080⟩,
  ⟨nat_lit 1819940111376950163964636799902335340673763149518148403742918863000, nat_lit 5625806801708493599340344470616240395528559147661505094873509668000, nat_lit 172597573102231144503985282069514646887944679619825108330549178900, nat_lit 57587544185735575942008736181235695614663136171267063490031109400⟩,
  ⟨nat_lit 809993499416324678794568624662138099709446120344923676813369376600, nat_lit 8354354774582532967353839441275668693548229656127844655439562156000, nat_lit 221373978695546086019389254516166136342585938518212050295410069100, nat_lit 26263489249809678599691116107789688414847164701468443166831264880⟩,
  ⟨nat_lit 7098831305893828612369082838270160440006840774347682296858824911000, nat_lit 1953464467826404104628967190368101025923188952892322421420630086000, nat_lit 223050761368513921245438750275488489487834895180724465862722581600, nat_lit 49672605919147913260942763896720344500562898121675067662310180240⟩,
  ⟨nat_lit 3944986311068601756462904674362794884166806918090369095541922027000, nat_lit 902681302663623782610990856486574000372442486989202843398464196700, nat_lit 5007746609315956284753403328007639237843919884800882981532279364000, nat_lit 38214174007769505458956284746570804928800807199599268776035879820⟩,
  ⟨nat_lit 997553632259436067775645844324329848493891994112625899193668587800, nat_lit 409217873293576751344871264484657440443590935014528782258328057200, nat_lit 5825559234390605996731745104321727845850658409250476902817654664000, nat_lit 70512302061788902992521733103099423309535137141449109373760190570⟩,
  ⟨nat_lit 148651941910801605173283976477577084839877880954570897343980076800, nat_lit 2871515162627684716754527597679555694981569691614303723290061905000, nat_lit 34652280592103882378402151633550674999914375000614393598466634780, nat_lit 9203024939728352025609850831658521736099267574573715309639016038⟩,
  ⟨nat_lit 3505125568959872458124609271735394588729222840424231297702379109000, nat_lit 5433752213958881160932213681561826844543463928233273312074074307000, nat_lit 172896761332907794917528583553099493439417438612274319892407419500, nat_lit 52538794135668638093716717299998322739181320407005111853652677520⟩,
  ⟨nat_lit 1972884348296483868057199775789126580839703907115000280714773360000, nat_lit 3833332352719716012362790314617812131330055035863972407542151933000, nat_lit 1812317803197832331428055662714558944179367462914819894127752103000, nat_lit 155818496201360368390231866762930058610744427466159030829762762700⟩,
  ⟨nat_lit 5996050186306239735321351958337657460620812658781124425798066881000, nat_lit 56837759424452100520905473128420007031787886472832406282633504240, nat_lit 3777027932567776124911756531420617179283468917892091245343427262000, nat_lit 10542858443974316943824165682521718282490946502876962546510835820⟩,
  ⟨nat_lit 4570825410359628835392144135870199066757008355334634183266759431000, nat_lit 1907007291912775137828015485636803352520475301577423715200670642000, nat_lit 3396826550894466540789405029540866843445035284997649338409192188000, nat_lit 53712384779902302858697282355945866909259546351200786248499045210⟩,
  ⟨nat_lit 186375980527041549552453971858392002285114963378457948724186607100, nat_lit 5474922147801191442310711022679765846405671712279726277508522642000, nat_lit 3316946194872884847858427860618240503507468139531585026577473263000, nat_lit 47026002203652034163428376164324324636973109383577425235168675690⟩,
  ⟨nat_lit 233212788617448378038111932468889744074271661070698838913854281100, nat_lit 3873293157888394124639372654374866625617135938222431076758264608000, nat_lit 5734406116589309346334477179884143429834430392859087162687829556000, nat_lit 27481896424141560388905237334023206692763140584433413776509940430⟩,
  ⟨nat_lit 180512019728066011688266851395684588859118189958522615643809867700, nat_lit 970922140884858318452116088308803277158938945059691499472294808700, nat_lit 605778993793657706184172935127371155203593794560108869266084161000, nat_lit 25825797808868331267396893983017205650716427009226234877343596990⟩,
  ⟨nat_lit 1951333137655353996713754358730829928466107698574873922210167676000, nat_lit 140101636264896619425503698410232049662927968054775713212810272100, nat_lit 817199079461850076809895361980689026292647970438370189477164306700, nat_lit 34944909286007537778962342296556876900217411639386921253856867400⟩,
  ⟨nat_lit 4956908141277186648253253176128974919668736957549526224468972715000, nat_lit 55996331901621362408376823405468786425546994639283815364319846540, nat_lit 2580851699366346529561711978992380906426730170864257839028479082000, nat_lit 38700862799076991643923798950525260685333516964254888812806047030⟩,
  ⟨nat_lit 7112683211839102321163186094306325799422600322959133450851043160000, nat_lit 172186853026094764640588831337390987891812326506908686565078002900, nat_lit 993407175356788595791275983723990347169396463473394385318067418900, nat_lit 46416541961139395807308582368501447154660356628071745070773062490⟩,
  ⟨nat_lit 3458346065560247710356094464142383743011757410791795067178029158000, nat_lit 1441201027434456164049279419358827543009828709627983466977467651000, nat_lit 4284500724532478057501596132589898458864720405853603482239892852000, nat_lit 126857540249724305495633931881474617138749548376234956742163851900⟩,
  ⟨nat_lit 3673120245760062095785575198954015096767229065777944847225715369000, nat_lit 462722978356105279087771888670989816099356640282403337750250760900, nat_lit 2297924996828847917548078118377367584804928059859911237673751207000, nat_lit 112394766039010952596273408951710894511831822852267321901209840900⟩,
  ⟨nat_lit 190375558860613831009045399767108769265811812335230063533881733300, nat_lit 2131430203589363906775890424493393380351754922293361108915016113000, nat_lit 7448780838668742260916506570689698548481347523861895035616524426000, nat_lit 27189056681016078965451651749103259318783080687555238273325753290⟩,
  ⟨nat_lit 4735713684036109876781803175518928434890484867802796332409357920000, nat_lit 737237711752951336769279789044965844072700035889770004383305389700, nat_lit 87519878849988874183992373852997183985111043381869462290860840720, nat_lit 27312275997262357655535488245158011496476905810640891342374979980⟩,
  ⟨nat_lit 5834693638119762349919387422103842445406527509399630298040754253000, nat_lit 2375075859771644688436903461562216382269766105367511938660139064000, nat_lit 1587484992516299126961741554920776803411361225115254255742271747000, nat_lit 60438593713577591493479455766474424241718497557528824658388119660⟩,
  ⟨nat_lit 8004278875019239712026642128760737783766778734783026878586840555, nat_lit 280425205314329705916299460020901203577677357682020669045066363400, nat_lit 3851258757807086613516398094452770290118305833949071433485256666000, nat_lit 13366861999085831464229391242919929425374755304019341871063396890⟩,
  ⟨nat_lit 931247457037310823093888533715346819422105269342064422961373341100, nat_lit 1529358453252343711178527676524076249379863533109954205510475340000, nat_lit 5602132100631045540315025082969977273901680030958591244539675873000, nat_lit 100291338705437220896669167328096498787997052968400568480376530900⟩,
  ⟨nat_lit 5397729343816763239556725181928899142056613762231547363687393724000, nat_lit 89226591055235837848958569439027847882478578191397129926083272690, nat_lit 143009427771729343288505742717666028000730539015303501308385262600, nat_lit 11595982594873048257077430908813202524060109356800333507028908150⟩,
  ⟨nat_lit 3943801800675378512596971548554576858172801402811189097138096693000, nat_lit 5107685757873629608458886958475957116193511117828739854010992849000, nat_lit 712117730195750833098634433004595708850944249803407673292423514400, nat_lit 59460052507463067460242077375020465222023754491000496108009759750⟩,
  ⟨nat_lit 877216205477504412159915693379915156689970066543370721522123329500, nat_lit 1405974234421546109039079281331834848332943085096055849555722494000, nat_lit 2356483335099053110569102577751195268755112023570777358509336289000, nat_lit 101274883202831966639601032737665216718769087306343648267884792000⟩,
  ⟨nat_lit 1858895618725557720677098004314908835794778573764599509747163892000, nat_lit 760031622668259756880356306669619246212114649563494442008034134800, nat_lit 6840670686283561282631264924142994634781191988943757481547831032000, nat_lit 64643937724381562181211016497919291620806540444803259857995329330⟩,
  ⟨nat_lit 2111615107035253068832730727260781154116245798903731604862053442000, nat_lit 73153882562647489948553858313832898262267661850267702036524089800, nat_lit 7519996039696799024220941722342727604356420824678190099394682701000, nat_lit 16306202772481158711093262714036102143909838744007589615820031890⟩,
  ⟨nat_lit 177181751165802037688652314968085441882170517530117675766239312900, nat_lit 839776773561808553841192507517310705222897673540265680361809826100, nat_lit 8931734221214671572397445378905866099987748003086010799371295731000, nat_lit 6417974043329464926062215535739526485866775482688605728496613223⟩,
  ⟨nat_lit 8360821766370258003295746846058336867424670978371296704036110764000, nat_lit 447573158825560877856562681559680990594634569692061470039085537600, nat_lit 323880008767585900668658122612828166098518132319325281933430017600, nat_lit 31822246127907549147303892715431942465805903692283694932060059860⟩,
  ⟨nat_lit 788963989265183893795337225989823363318430020217143447195140869700, nat_lit 5882508720185943806951144198654485818914036384681514644919660289000, nat_lit 2173857105695993831157163503798798372373872855108171375581717538000, nat_lit 84038846321522625233542098022909278348019051907187183680156910310⟩,
  ⟨nat_lit 723775406212771685919495967572301112605442874491935642161950581000, nat_lit 7026817247528738509888282460767390015401820862562458135179116164000, nat_lit 490612630568702601860371084839255586646098934859509318930204756300, nat_lit 50720726619406325298304430036403426168492729412182422815350883910⟩,
  ⟨nat_lit 2707821307505513475895824619012683213650397386693496096269942677000, nat_lit 3098946836718330044213385470414163281761575619819415589650460837000, nat_lit 4050348872368510716722468951589640173739314861376021490487690591000, nat_lit 59924005070043291094489065224716297174939113692150803841463580740⟩,
  ⟨nat_lit 3420525410028177395685109709675132020188163002802633728938278873000, nat_lit 1037483935093050310339940466950462735910768651662057630156121003000, nat_lit 3167826895604702341512243957232278145046147796591994471235636145000, nat_lit 119230389519723109280915126370641466157122124085040150047168484800⟩,
  ⟨nat_lit 23971732845894384021894066899816103677896963928965052687474120700, nat_lit 7021521850192977852492903587018858857275072060032403408797928570000, nat_lit 232786203022579845911310710507527122795750760494441399539878351200, nat_lit 11256503589630780843483013052951095118041457135711009628042839060⟩,
  ⟨nat_lit 9529047174672606923680111853583640865354510793319630570444466658000, nat_lit 116884000870695839013220934800225256191392177602183696049461394600, nat_lit 118151711562759471653440809712019453517135592836615416571762481900, nat_lit 4238734530848500084863078105498810079964425544909438599204057291⟩,
  ⟨nat_lit 594162276516231267149634602510560033478528639146240736319895996300, nat_lit 650684666275991855340551131313337098543157727686613174537749125100, nat_lit 3268637292613884716831788747913261823235155105378748604252395838000, nat_lit 71795251301451032984122472364686171818544911851724993350698244930⟩,
  ⟨nat_lit 115120587669356127186495739169419427741986775400501429252268776500, nat_lit 80173833190336418776552764464425332750975612304998805093482466040, nat_lit 9681102844937589386849032477326345485097772328386682090614945560000, nat_lit 2263801126655884524263872935905454336701332752589597190474664374⟩,
  ⟨nat_lit 1875651410979569257746182172203114113835324199041897730361974022000, nat_lit 1048317104100252195053808730437821740302364035023269425155187181000, nat_lit 3751512017767904847433596177780817160591180083376826666193971372000, nat_lit 131174318984907728367713036235296997466644131638242127211314926300⟩,
  ⟨nat_lit 131876648316956776202486067081033452122088793157452871105831547300, nat_lit 8818984436492212610985306449569180930057134886062328785724169616000, nat_lit 150751132982143679348503657570342593623811041448038237595348009500, nat_lit 10193039648445750268361728353910458220462191411765797819580085750⟩,
  ⟨nat_lit 70342077061344065855017140913803734425005965423050178995004707540, nat_lit 1779931362112384023294324564855162433738337713595912183446081487000, nat_lit 6962679212195516367824871677596392506960725751022615842973985665000, nat_lit 29756962484475225923187451760541510540859093198870276521332877750⟩,
  ⟨nat_lit 167111674133089289832016646348708615265115655972550640122215332800, nat_lit 640215355035174450626881405807891903243830165251749970488545414400, nat_lit 8588413085668976519968041317282833545201603970222963955638492402000, nat_lit 22468738836762567121186469507681575448093684264842759806101282090⟩,
  ⟨nat_lit 148615297771265088364584987062999516746308869025384271955118911200, nat_lit 990781854770139742841241606692284890678450159587435817687250189600, nat_lit 1943014318484946378919360303469539452275271622940930023780889446000, nat_lit 42113703628972477295851191043281588726620368525960496916531416170⟩,
  ⟨nat_lit 1898562596264397833334443576475164922368707866985226509884770991000, nat_lit 2132864091053829220719860085485253857013139685747261900823809032000, nat_lit 194639793707800724304537043405673817307046653287383899632773812300, nat_lit 63525893004599277269069556479590487592113851193837554623377354820⟩,
  ⟨nat_lit 2466916518816815300115226358170896408492761673190696407344909103000, nat_lit 1703528045231606720268559145374234860453435807543989457591596426000, nat_lit 5633671835135334646183571491285848999712519173307505899780998192000, nat_lit 62228542542000338583245037900942860421744057126284175716614634660⟩,
  ⟨nat_lit 867932858140022304922871991488973347471844433955412801998429726500, nat_lit 4452665852152744206270862518939506903783882258444578700323144486000, nat_lit 4139939813833747809328285946564478123162839907588940897253240480000, nat_lit 91507706230392594588135799757706005118890283383176558210052874960⟩,
  ⟨nat_lit 5069363956466004560671033185609990936512466600809804885599548786000, nat_lit 622413386021462608485161447965713664110145025077310001408901687800, nat_lit 872544313717572311683033710522154527335146413801007054253266638500, nat_lit 94189049501576605529956312504575516395939551728648580821239425350⟩,
  ⟨nat_lit 4623365426901432744152275675621422232033969269395076760838503649000, nat_lit 3671926809965880257490437974871527073186803301324434630380262030000, nat_lit 523037381484390591451020065187393307067720780816599716254682833500, nat_lit 92385492309402949058389472392415729509024533674470100706473172940⟩,
  ⟨nat_lit 7385444697648062317607143307800627725004898256388811961489765002000, nat_lit 2532890523964282151828412647877583385051162362614481170206877876000, nat_lit 46341797150613137614706104672428526970983205134615746842789729750, nat_lit 5757769009885353753975056858964366365283789100267497059344461653⟩,
  ⟨nat_lit 8738764796853344590274115840868970164437217405851504070222159435000, nat_lit 919993024606747613553545595770732942630218071373567895615293244600, nat_lit 111453317555086033984408836442425555745423822862385840107151606600, nat_lit 12465353996943254279968742039560826636741877528910819919300985300⟩,
  ⟨nat_lit 1260929136049946543113341724858210260463188128326890253665821946000, nat_lit 89985846511326835379519015598487137172889515738939696425634257720, nat_lit 130032722575216588028306741642608344665997224654872349421490212500, nat_lit 8703415509664026974368770267013124825269077456100931895142401920⟩,
  ⟨nat_lit 4126513207735960593620374395920467743753658804846454354359464025000, nat_lit 3925404535596258732769332590977876769640384625988314502613305535000, nat_lit 1903487831191660665179641915518554945583374007902111959223027721000, nat_lit 34387527804776260147523449151053044282463674853040915650808214850⟩,
  ⟨nat_lit 1679734904063729058128743875135851201306194840958162190006243713000, nat_lit 1864795361998551996244047430114997471128415427734453549156447539000, nat_lit 5484948392576974190295667645383647998554481081019295974238858191000, nat_lit 104901047763866627996103262717411561826557705059860603118593456700⟩,
  ⟨nat_lit 96958195100493819698058993328063548519367262416900478035610499250, nat_lit 360312497669392437793036846355983258353641553291680475930487852700, nat_lit 7567017873719755997484420993355619780712976394791277745337194816000, nat_lit 19001366138754831676192960465651199928142719524391828920300684220⟩,
  ⟨nat_lit 132783218914069652508219975523390260720206144384530936738350265500, nat_lit 7237101625983119796955331626891757937364357845158556155442661541000, nat_lit 2048936461930627715297521415661846427947468722893442133963013893000, nat_lit 29798216322763856517894848362905399483805377681085527053573148450⟩,
  ⟨nat_lit 2812276304402152633690619310283504744559053802066720365179546859000, nat_lit 32586273916382616909806550619530858322659554832846851970792228010, nat_lit 2740563184562950284275885062939169906322650524346066365856221437000, nat_lit 30088498112093183709880991790179897697227092482982828513472810370⟩,
  ⟨nat_lit 5785665381495505372962581010683439103538291860873882885812663720000, nat_lit 2223251957765468554946881679652422041710487713330480283653429113000, nat_lit 1038458975160918784441222892004780191235567393337290530044481757000, nat_lit 99972900259866072976985478409514933694691215676596113065919582460⟩,
  ⟨nat_lit 4470810358244369698264215062486886602267277679112451588029397765000, nat_lit 1717587280110997296236184308215062599090780107052538046709297048000, nat_lit 2088763118828320322801295860570155960144532186301963433575628604000, nat_lit 150290667346707473918175530752596807096115456315419555039268908800⟩,
  ⟨nat_lit 93430961117582199050121864712967666657133952950860300469979172500, nat_lit 4095378104780490866531130629178696509832840107303159323996064395000, nat_lit 1796558059587851097096093732048306918300035610194557141341942112000, nat_lit 42926659131741608273760249128542057671573740288175579940876783260⟩,
  ⟨nat_lit 242464586505856742158950505325954579927096473393571897618767496200, nat_lit 61044948341063237069865722336512117272077991759657127519973385700, nat_lit 8779264347669467780518108785045923203529318272665304923025848855000, nat_lit 9217422133469898938174737499576783151620228580357340870066082979⟩,
  ⟨nat_lit 8538367728732515369233158357045118584629437880238416237898140250000, nat_lit 29274827291203395148114314391865230512811365953109907815470494590, nat_lit 915372022897739044243594793831086755006672908111154397829010939000, nat_lit 11493958022342298515981128258728834268139523911378855260165454230⟩,
  ⟨nat_lit 174415578130247546415766135234959986250883771129948244110426131100, nat_lit 5988323651127695675008404263333837014879782571683448968786716851000, nat_lit 1804815588056152122838448924253929203715021280130491546997019551000, nat_lit 58332416158819812405842222944788360198864352519950685003780360880⟩,
  ⟨nat_lit 6779235131450779431802354176882770419065672965994463551158484882000, nat_lit 260571431348722468787102421962319968774519370543513219675768972000, nat_lit 239520397792854919281756267915746919960774280714001045284187295200, nat_lit 35627133980960936477024808414049848753408893358781090185300419100⟩,
  ⟨nat_lit 408347536442000247492639279360562127585275691398093703940101594100, nat_lit 40556974035977186593299391507347789632206147267240573200881232140, nat_lit 7029412784895705467035102051158933703015470740561277809342960652000, nat_lit 13881786929059469563622101084072273132926647939841414789377908430⟩,
  ⟨nat_lit 240593764738979806009794660164405121823624794853924986315724145600, nat_lit 9510190140216096093307494551675987367289809828927843906637117194000, nat_lit 134308357062026558368963879552138092773385622211181622984028333600, nat_lit 4546072731766212492140170478840921279303712194587809155810070449⟩,
  ⟨nat_lit 639863529289818968100316643686000611086010448563011569892865256300, nat_lit 141743179011768257612777065006178687762251895124038726716415844800, nat_lit 921215955466882394208557113898367018944372862353568869535133736900, nat_lit 24915796274451173645080956372050627065280061944765266453090172160⟩,
  ⟨nat_lit 6513080845324389014086172751303058843732663572276862542673215822000, nat_lit 193456965729584747230202819611343814827277425132582984065717875500, nat_lit 2359808047194266557554432067495156421390395408485434512966101809000, nat_lit 53259067997547069998391895977271642798608431757915429726659265320⟩,
  ⟨nat_lit 132305147958004730475989767022893285902396335929953060998776249000, nat_lit 1157258521405562713033646388270145489541648511820619870310901165000, nat_lit 5664818699370886681589110299404145947010019656720349417184829946000, nat_lit 45821197484336434259815540473686992579762038730385163231782799840⟩,
  ⟨nat_lit 5430627677155099452279852473278327044430740460813671262265856633000, nat_lit 2534804912905675427063877001770242026110978728856125281688693696000, nat_lit 147646791291126538692149153300859119704578912311864132875440201400, nat_lit 57317495589693518066642625325122591469986718989132228724613740350⟩,
  ⟨nat_lit 1725367552869667003772352714588486403411573606187576137177746807000, nat_lit 301233865771804478574429270822756569698249285228381699364740683400, nat_lit 3770142515015193273842054970784055928189449477736920878391277518000, nat_lit 87019926324269484766848879814087129481857295130270319402564573780⟩,
  ⟨nat_lit 1106445695765415368335905169147326159177437700632586010505023685000, nat_lit 5766097256951799679753587362370083269461539118144445381017189399000, nat_lit 1114484132865444247232567640937154753262560841036003367839337242000, nat_lit 102596343999647699583323361272034327829455334976861808975549121800⟩,
  ⟨nat_lit 1022080770489681250425258797492710445897982647045053890235716606000, nat_lit 1237065436616793057094096492326125740166606085181185111794166916000, nat_lit 7709946467455654212765623327912066145472427791347566854096136640000, nat_lit 17008932246475467191832146211108846256916378627076323373145379670⟩,
  ⟨nat_lit 264280116566976111232442147166790584464883597753217388377194956300, nat_lit 5626077365057523412635297690400968121958778469721851673855924020000, nat_lit 808551995698463444825507225364257277924176455470749470717279943800, nat_lit 64146138435418541814565231946339601380081061647657034932761083260⟩,
  ⟨nat_lit 985403137661798378347417590347653146315219690763728716229037730200, nat_lit 6377645129364792195298628002432816455571663965312250677166982353000, nat_lit 2404878198640394719071349800474934334589001221040521551851424893000, nat_lit 64243233572797311906956974134727293924105334497144187059094554180⟩,
  ⟨nat_lit 33415450059207903373008879153773911557172852691922960065929838550, nat_lit 4204189403314316728897173411961571529373517452114337003370048063000, nat_lit 3327911262775774589478240171329636260081433538558731881152103670000, nat_lit 30701602274916861146672619521577082132514240342908701789017469460⟩,
  ⟨nat_lit 1721096093997542189073042058603054096732193239527488488800983531000, nat_lit 6677160501593694863313821819458953925841353349008936309055555414000, nat_lit 945124744034089174544258523559343582583560833723527340123142608100, nat_lit 82819005463112995208713770475084505505233362920078033748171051280⟩,
  ⟨nat_lit 4491638244881406775327560686837650061782664666132232330374875686000, nat_lit 538479113684641682234236223944663249993518304487493257098905149300, nat_lit 3685725096493866358988228179684726269920376498432909202423564351000, nat_lit 103249701500984059249025598797438088106459463441472572025039536700⟩,
  ⟨nat_lit 202361367796114893236475199170363946637845703482124185663642038600, nat_lit 2350815132425931811285793897554108571619834669960799671575963575000, nat_lit 1803604387580974930410899534429215650658368746881541440332814936000, nat_lit 68275656948583728870516055603698885694461020355356423916139799060⟩,
  ⟨nat_lit 3647071699267969811879236154249646602133923921821412879005769675000, nat_lit 2275205924574069639225447283679824656775528173618389846617586535000, nat_lit 176636268978477390812628471281904228278491131502827947687957708400, nat_lit 79251647549691392368042555500390846066389044057205283906407897430⟩,
  ⟨nat_lit 1665402273109914915482614288603517290746974756394351736804111311000, nat_lit 4703859375131688602580763043619124883524468931982808581082572078000, nat_lit 2472552829565215275693350423225650101735864895678667084321351914000, nat_lit 130999947244802237537319586392206505601382496364879424765023057700⟩,
  ⟨nat_lit 1062062171042790159708995959015701137121940849958117645760146742000, nat_lit 242925055821380203510805781770144635740313446396931780279995060000, nat_lit 7487176500483958494523768373029752227116984664494019900817165949000, nat_lit 53145437096747779864463085759790199802691039441795063012326029960⟩,
  ⟨nat_lit 2111150628770547758663197118370102320211610273817872766463499016000, nat_lit 972233493442196900070725053744170550641555727086586030860634760500, nat_lit 2095489435843953196528520033414575095842154478876220449410199648000, nat_lit 145495150766478221946866127066083834186900067184144722273674260000⟩,
  ⟨nat_lit 1175572629137547492915983068973341468053083717311974003643663967000, nat_lit 2529758209488976461325420075863964109392786215829443199031737315000, nat_lit 2296878335128088362428592816076429269612812596022681693623819974000, nat_lit 150778512702634192959183763299021338127342941280099137179020258400⟩,
  ⟨nat_lit 3980223742151177638645444168350113993864133835350705595079868996000, nat_lit 150302281773053725123754905546621162157049906017228046223107254400, nat_lit 5704926874223032999780809014243085266259998240198364960980416539000, nat_lit 19623713381794568781425469424249691516962004638863170721647112120⟩,
  ⟨nat_lit 138728514914477335325123141317416772165935411446539955176132497900, nat_lit 7660133000076804109878798639964336728742743726621969756912608777000, nat_lit 812434912260119820590042624594680495961887295327251149044861926300, nat_lit 29606147015803256560439557228449986386841950487215448719922667940⟩,
  ⟨nat_lit 1754777884198104311439917429475074559906187498146926560961283807000, nat_lit 7005469020980794975660989316847222900445647290850673009566269145000, nat_lit 145730284056631535890167789731473503049536106834911333272854750900, nat_lit 38035271966450156840171131236934286519353341564946201100880972780⟩,
  ⟨nat_lit 3388770319198367534769675989037017728855556050730628860325535262000, nat_lit 1101529021799191763469956755957881786659888577137313171698691449000, nat_lit 565089889810176435755812260811266735729387509999238466643322790000, nat_lit 91381147295753738594873310656071069288718891993712826508111723740⟩,
  ⟨nat_lit 1035975611172236025573028954006360150776618556762367870997513150000, nat_lit 1982636933298153572912769044696662072579721574689892981074514755000, nat_lit 942904943731419573268348978824353337377307131400808533702700048400, nat_lit 101794543228083687328526387049455266427554604850497042147000834600⟩,
  ⟨nat_lit 71989746557295489129740422860958426457586192304619197208304775440, nat_lit 1171560389619699438483376492329552522045104063949673965727705087000, nat_lit 16316025608647368442702942969336020232739411269728640387542451610, nat_lit 4146958482361182209562036448088416362171232324308515583945483721⟩,
  ⟨nat_lit 443156052221940605017132567242781055859023689499275861052248643900, nat_lit 896779307693314340811560269058833371512018968364496989000475262300, nat_lit 6958274616835202710956122008379516945292435524373068858756547356000, nat_lit 54859716892136944161679387329863935570243134698811307721199754000⟩]

theorem jS14_eq : normJS jS14 = some jS14N := by decide +kernel
theorem jS14_in : all3In (10 ^ 67) jS14N = true := by decide +kernel
theorem jS14_ok0 : row3 (10 ^ 67) (6 * 10 ^ 67) (10 ^ 64) jS14N 14 0 = true := by decide +kernel
theorem jS14_ok1 : row3 (10 ^ 67) (6 * 10 ^ 67) (10 ^ 64) jS14N 14 1 = true := by decide +kernel
theorem jS14_ok2 : row3 (10 ^ 67) (6 * 10 ^ 67) (10 ^ 64) jS14N 14 2 = true := by decide +kernel
theorem jS14_ok3 : row3 (10 ^ 67) (6 * 10 ^ 67) (10 ^ 64) jS14N 14 3 = true := by decide +kernel
theorem jS14_ok4 : row3 (10 ^ 67) (6 * 10 ^ 67) (10 ^ 64) jS14N 14 4 = true := by decide +kernel
theorem jS14_ok5 : row3 (10 ^ 67) (6 * 10 ^ 67) (10 ^ 64) jS14N 14 5 = true := by decide +kernel
theorem jS14_ok6 : row3 (10 ^ 67) (6 * 10 ^ 67) (10 ^ 64) jS14N 14 6 = true := by decide +kernel
theorem jS14_ok7 : row3 (10 ^ 67) (6 * 10 ^ 67) (10 ^ 64) jS14N 14 7 = true := by decide +kernel
theorem jS14_ok8 : row3 (10 ^ 67) (6 * 10 ^ 67) (10 ^ 64) jS14N 14 8 = true := by decide +kernel
theorem jS14_ok9 : row3 (10 ^ 67) (6 * 10 ^ 67) (10 ^ 64) jS14N 14 9 = true := by decide +kernel
theorem jS14_ok10 : row3 (10 ^ 67) (6 * 10 ^ 67) (10 ^ 64) jS14N 14 10 = true := by decide +kernel
theorem jS14_ok11 : row3 (10 ^ 67) (6 * 10 ^ 67) (10 ^ 64) jS14N 14 11 = true := by decide +kernel
theorem jS14_ok12 : row3 (10 ^ 67) (6 * 10 ^ 67) (10 ^ 64) jS14N 14 12 = true := by decide +kernel
theorem jS14_ok13 : row3 (10 ^ 67) (6 * 10 ^ 67) (10 ^ 64) jS14N 14 13 = true := by decide +kernel
theorem jS14_ok14 : row3 (10 ^ 67) (6 * 10 ^ 67) (10 ^ 64) jS14N 14 14 = true := by decide +kernel
theorem jS14_ok : all3 (10 ^ 67) (6 * 10 ^ 67) (10 ^ 64) jS14N 14 = true := by
  unfold all3; rw [allBelow_iff]; intro i hi
  match i, hi with
  | 0, _ => exact jS14_ok0
  | 1, _ => exact jS14_ok1
  | 2, _ => exact jS14_ok2
  | 3, _ => exact jS14_ok3
  | 4, _ => exact jS14_ok4
  | 5, _ => exact jS14_ok5
  | 6, _ => exact jS14_ok6
  | 7, _ => exact jS14_ok7
  | 8, _ => exact jS14_ok8
  | 9, _ => exact jS14_ok9
  | 10, _ => exact jS14_ok10
  | 11, _ => exact jS14_ok11
  | 12, _ => exact jS14_ok12
  | 13, _ => exact jS14_ok13
  | 14, _ => exact jS14_ok14
  | i + 15, h => exact absurd h (by omega)

def jS15N : List Pt3 := [
  ⟨nat_lit 1507547919755971307323222521008922006046122206406332528444495322000, nat_lit 344273235517920209714403722877153870947570938111414554139643448100, nat_lit 3603273979439101724249110855554182765500340675751955001037186277000, nat_lit 69594868332680642665631067469905241303472551959631443465210620450⟩,
  ⟨nat_lit 188159680355603546316208870854007957880939195772490484313828475000, nat_lit 5673009248072461636418980317950378062125266763550228339399347855000, nat_lit 117385247192761633904512532351862402345502066892377854778526580600, nat_lit 16532320063980015092626898180947884969220005937220770987218566910⟩,
  ⟨nat_lit 1315462981426609064062652370873094585872092764515907773503400041000, nat_lit 3507789949506376903001174065578887290403929507935095803340322288000, nat_lit 1896276868156402127194924640963654060969722073292125480609427432000, nat_lit 101926775995255792970146137979770670623038806419335733206554412500⟩,
  ⟨nat_lit 4013737643147372729742812356981168790080688032057794143731931547000, nat_lit 1038334984320445945157364256768962054468602648569866719864062501000, nat_lit 103345127778725376607389373610314834687159352065119564230829573000, nat_lit 36256957847488810930227309158098692715612185172259627445544409530⟩,
  ⟨nat_lit 73092539757214478459915772688223972253859973531651623607129542570, nat_lit 5615240391183929744040979786427374244389811792374745179931577315000, nat_lit 2567153080397775108549280541515651613429634965634220612356869904000, nat_lit 30174846530765470176210130966966288041482272555847753464417240600⟩,
  ⟨nat_lit 3347024093823241244609369099228269093693248989200486247173326943000, nat_lit 2041102760068841353761888735696540997462723191457921880281791502000, nat_lit 3924504627915242045079925580365458812297522995059826541206688461000, nat_lit 101935270113878709402983939824774065402230348057094860534632708500⟩,
  ⟨nat_lit 1490306277313417818610031718321420995284501416541350253126248517000, nat_lit 5143385518030857291749408471402767958015600934763244521266928880000, nat_lit 2694241053915777243105022727596363369457723194259540877451021311000, nat_lit 77008327939071587899669535824537522859237718053837245209423366910⟩,
  ⟨nat_lit 4805149545889313647035906467121547921452605097499816905664838647000, nat_lit 1353047347631526716002911892098343721499072202034985486961852471000, nat_lit 2405485647741998504800630766523767413780495134872646960023147168000, nat_lit 82791642481245234832498863242713264658449759213759849792923016020⟩,
  ⟨nat_lit 4286096107108586500201233924394721820192853126874408814779281829000, nat_lit 5463646505338739983169995560610994703941544705692729603927161434000, nat_lit 37311554499422761109634627636357325205476114982331473001087746430, nat_lit 11529759109539938656743576734550123423777904345069899312923693980⟩,
  ⟨nat_lit 7259297304410000650349314580350532203211141932590884734445662477000, nat_lit 2277614469250161161048322380345275004577318127774527294964195106000, nat_lit 137026934903105275273617780800451233404641716587677985043131208600, nat_lit 18259981776798342748216783028405312130585802150736453526946578180⟩,
  ⟨nat_lit 6887303948099333307654942526279657323118123345206449069199772793000, nat_lit 688911099911114989081210009477078201278244510289402015686937020500, nat_lit 676402911632366734657853259852906231319306955510927805121382634300, nat_lit 58366481990048430004851539197348685664256953893866826934025434430⟩,
  ⟨nat_lit 1512475431736191431595520183910523927252671267174843780074134327000, nat_lit 1927510271920727162301981670565180333508029856800495470080243703000, nat_lit 3523548900932106840337532910142125071628161157850250550901145533000, nat_lit 153387322574234189252398918188473002559666147761450369105664877000⟩,
  ⟨nat_lit 37323421249487547348133346036352831903477122811488432029638322920, nat_lit 3715937177970797417338582605334940926618298795350895316701338333000, nat_lit 730748995330877281481464184884023046503725486609277892044393475000, nat_lit 20573564758715618666735557576023920963696457017285069892432890360⟩,
  ⟨nat_lit 615954795657499374577243043409846136385053610392438054674367292500, nat_lit 463677228390339674559502324460120565365818038395112417191063641100, nat_lit 2451019397781406566542480000593695040892996017816452857093985048000, nat_lit 47103182511956027536927032582606197858024461387116906292275883480⟩,
  ⟨nat_lit 7389490095234590781018513348039369625119842210198338593519592415000, nat_lit 813626515012257448592246793704666179473855494589083406263137672200, nat_lit 98656832142126346919376783499740602821750991322466417826300760590, nat_lit 17819620356863368266100728488083956017566803744415565049960862750⟩,
  ⟨nat_lit 9458730128599713495079047623561044440495693892373359751562138119000, nat_lit 164807261128604094974066823044611658238854685087339164829837516200, nat_lit 181383894200806881739382999996973286958566030299440725258460658200, nat_lit 5694019539450177595948494498666442620839626803512265283268420652⟩,
  ⟨nat_lit 1210381671421952152833984830705430850074100875926729462056091503000, nat_lit 3473112010319771224424114431421928677451883748931373592572416154000, nat_lit 3490416463811567059304469305094865890623615524904741296905820159000, nat_lit 134551048690387710080895324158737848135393936636984593321551694900⟩,
  ⟨nat_lit 4329795945909627498935839789866176155758779614377756722545299596000, nat_lit 162614712541591923191658765600293003305406839722789556167032893200, nat_lit 5488277777986533760849681931636006975495968028112764622958340653000, nat_lit 7779018995210490902834155512032063074008351574933353724854153808⟩,
  ⟨nat_lit 1817101527362148185207841904059038129581201582281659224540014707000, nat_lit 498690232224122325277793696237729486589174388052279527676873644100, nat_lit 525120028717602920038694528349690147143105117582730559808830066300, nat_lit 40658199991902760393760757431021965922698951325395810348408847970⟩,
  ⟨nat_lit 1862102308011067601528326409737766964749590080827535397826199848000, nat_lit 684243818026857207017240605748759459202951930090760168844388795700, nat_lit 7087818447451700470256303294367219089020330303315231664121689966000, nat_lit 19821525605105250612068299129624797759163555075973129308260223870⟩,
  ⟨nat_lit 2340243238564645702326900773698025200066048946065083789331523612000, nat_lit 1806587186966420381502246775983985061035905667563604106233006117000, nat_lit 230719565419799046228689752558465746256236639771262156133843716200, nat_lit 64944805623375961639742454147207960359726781139157135047026229340⟩,
  ⟨nat_lit 3019883902959320310332900304981445018441264614227280202630747552000, nat_lit 140309876883602237207056990762876943492598326325588432486046227400, nat_lit 3643679934488349257778313286479301887205393003818337803911742338000, nat_lit 36380920898838394443139594547130928343861158081215710695732060280⟩,
  ⟨nat_lit 3683452397662419858264468761618595393324151857877733959887887066000, nat_lit 114022753411418673789283043439725251436873838499830227042246120700, nat_lit 4420485550131462186218552567694379815613391169895369120099605261000, nat_lit 41497539314739001434852862407422837393317173343086173491308518140⟩,
  ⟨nat_lit 167008308749618847884456800174247488494709582209600460114149247000, nat_lit 201674717010268824270179950798590124640695271406928288923663824700, nat_lit 7380935281581850795751052247277595329512630654336073733870343132000, nat_lit 20151461699649762229945744360422216804824000058169085053149645830⟩,
  ⟨nat_lit 1853627345110679103156596181283288020067113351800218327381424742000, nat_lit 4303885376521661143884787525068856036516122494881150788434882070000, nat_lit 1999442154749932390471624074134397082824010005608617274384112149000, nat_lit 128557393159895326807158340517698289583920137202341341332480053400⟩,
  ⟨nat_lit 1712945982444072810317973997849592133218018497164458765572621605000, nat_lit 689356601846321016085480159940644642103332753712419045634685027400, nat_lit 1673618347414655118423057258879946879887326308177046350693771396000, nat_lit 95558938457608904270445239468827273877397665671480232333180183150⟩,
  ⟨nat_lit 3168450320095819373578005499339039486300771634245428385157785658000, nat_lit 845670543419344461948018654245238717444263472185122274565939589200, nat_lit 4803381759629485033981045909851051182582406321118567511477414861000, nat_lit 113651739657075262963108170709351680413800026496841146896400533500⟩,
  ⟨nat_lit 1040487962422037946581441359843771227775552562003755081673079098000, nat_lit 1874951749459176058018076974264535177351518110689604887588366829000, nat_lit 89186535986288443318892157936022597804252758820457421557075157340, nat_lit 25516545599894214683716393355437138971420280873791587552349862850⟩,
  ⟨nat_lit 981659722389648708899565691212567222703860710785554779569371246400, nat_lit 2224899083369929782467409648467089816692195384108047387215296215000, nat_lit 6614232419960305804863033658111918965372136259776892110437766171000, nat_lit 43429246005617070626516987233076341714062215416663087959427112180⟩,
  ⟨nat_lit 216292131785116962465824411397035221294901127198301033916996592900, nat_lit 3871644184405773887006361516324143667321720689470230593081846852000, nat_lit 115646515028886542169801609752639622647764932492540858480474889000, nat_lit 17607433770577075767328848016736157633183650368496807271691705590⟩,
  ⟨nat_lit 25297163106192934214984400814437205154778104248867262292404519450, nat_lit 7558394112631253491170332640712223428962130363482630078140738897000, nat_lit 211075547714869155841125479192446031953804561002169372260466704700, nat_lit 8626635205453634893265648816024409493331867504633385224775616975⟩,
  ⟨nat_lit 3024796051967951057228221908670407921252653924665134349854411799000, nat_lit 3345933071505105526921690229266163179699282703754126791234071372000, nat_lit 909673303465139676406161993528928712829569153686388571760411244000, nat_lit 129631128832616943999215354910799100317570605981119665928960796000⟩,
  ⟨nat_lit 6716803022078243802299406907356011947516980183718961807479106164000, nat_lit 464209944577940968513962103714149009710022754865431814142700446400, nat_lit 2039576863668991707551672728961021869258022069682479554802719660000, nat_lit 62455759337522158043467626294070288603684681656039749589504880010⟩,
  ⟨nat_lit 2989859830638817302485172277680760239363879758313955722783701015000, nat_lit 5933404616802458701504954006272449071515829903195455555442319284000, nat_lit 49540763971147575443385790426939679525869759078105814909135053030, nat_lit 21785665739773489799290973530545391373803281800867206661973628130⟩,
  ⟨nat_lit 5566144177763578424355086225204681505592888953801252862419244827000, nat_lit 193015961502599384911743677302377386913325547033100891307856720000, nat_lit 142367684394244658888946581423076495751006722756084088999678704000, nat_lit 20897625922947675708784904152041322198859784870950537896844926230⟩,
  ⟨nat_lit 8051863145397753908757381282881524542144254542803295029979290452000, nat_lit 295381481363805484832660053362194844319038227221938709111782010500, nat_lit 819729701222552734336500471680674082427816152528678698412690787700, nat_lit 30158082445054844146324855323390667421620751011651921435800654520⟩,
  ⟨nat_lit 2428142654708457861842095898800959540576101773100570135565018133000, nat_lit 3141717882112441949650175241502998277494866878635675120138759374000, nat_lit 54054254305511404338864710980035341964108329671250983810912458630, nat_lit 25868628997504128155929661806061417047581103028140244340492296140⟩,
  ⟨nat_lit 297806168088563867109466877233741008649929250803012985866240643700, nat_lit 6957757395945379131234003937638040452235707997049138796969973313000, nat_lit 1964192809628879539839300619786562931800259575021159390124020256000, nat_lit 50604419223247474441604570895691553088385974067410984894064144250⟩,
  ⟨nat_lit 2357988052247937052564507233107801500149518764334994618155976048000, nat_lit 7440919373937554330631017003787195438353467362496502082733415729000, nat_lit 76497940861538571249208564965125673451639935535243289570123337750, nat_lit 8711379001063668514876896777698874806264931434428895433802228898⟩,
  ⟨nat_lit 8946270253410304522116585251777265932407660856669437080576209588000, nat_lit 705493001984937660609280576850751614631234029162004466210103027200, nat_lit 234515156273200185652069179354634308173513357340465710312385205400, nat_lit 6453576460863578661679849150413639169117216431397650132591195028⟩,
  ⟨nat_lit 1121792280386707692709948527528686486748629284754174006336660791000, nat_lit 1043687699324670739625043389979036425747865592942763801923527736000, nat_lit 3123604751876906073869213667682705784684911371393708537563277624000, nat_lit 89658009655748918207264216415949190056747039380280019410621142000⟩,
  ⟨nat_lit 519237400349747055974835799551025703568070724251712366223675963600, nat_lit 4388703209344928225967837070696464123558814154094784298039218614000, nat_lit 590982882862540207284621745403219803350294757946709496718711738200, nat_lit 51297789254476688003592178591288421062572308312035305276611468160⟩,
  ⟨nat_lit 750257008807291347963871048406900605308207206273757012851871497700, nat_lit 1123826095831733947691073167611596284465148092408717685361584288000, nat_lit 4873661284170799570040542325524352242199355164726111421373956290000, nat_lit 90327911080073244781921641379664833169504127652007125466685058130⟩,
  ⟨nat_lit 7310623094344363366251423574167128037951032177487383226956992834000, nat_lit 269550729195079270396104565507149442695009869911587583330786819900, nat_lit 2358836750070112494649385460727053123167619746129446822595882165000, nat_lit 11961967993208967737206677829477634097466156306619512172811493130⟩,
  ⟨nat_lit 126374640498803410790134721274479219346451166590996422674476729700, nat_lit 111395731118454397589230274647986055967599683055829285995432619200, nat_lit 8810813943593802370438403273988325401378123177523012703290924786000, nat_lit 6838006305747889926650955692832877782860531243650597535586937214⟩,
  ⟨nat_lit 5498570192101567596917884967310932388752701982500129881338316809000, nat_lit 1545734415403295522679688407558522154300471877280399362867648340000, nat_lit 704580428973594730304837359963543608958467405161509675103029575000, nat_lit 81958830629484291024710169147292520154429790853940219369443432910⟩,
  ⟨nat_lit 7007948673386109236711075537087929083453395324690104052304316630000, nat_lit 2117648658835198067554536274693902394569427273786607554572204181000, nat_lit 807055528263044593927584517409693248263014065622475564319693573000, nat_lit 22206439425652664268777234587677109314297820766323178578768134540⟩,
  ⟨nat_lit 8726891267996625449570656072835645027098369411526860527365211376000, nat_lit 109310341294830412376502764563123585274935687669792131184878344800, nat_lit 967477470139262607163753149921710254601015033963552527744138162400, nat_lit 9697437041884777961496775102402643366182122544057044475101463350⟩,
  ⟨nat_lit 1791221361257211186719724286291912846079033799356606278099698381000, nat_lit 3050178306500067983056814442020723372127626235873374748754836252000, nat_lit 705107733404698491273665641382862891648821449971356416929526294900, nat_lit 120072958177290442715190787022291403962666660644253002606569879300⟩,
  ⟨nat_lit 60015256022808624807060478121713422658165546919963281838051997210, nat_lit 5155227118844687073114827396363937638788046027573215691555938136000, nat_lit 4686425711584814262261178503642217099113862018298872900602750799000, nat_lit 7359342926616280019613641925075171834987359973091706681695567359⟩,
  ⟨nat_lit 4429409397741571156988977408273936028999556726909441314549231557000, nat_lit 2606460785983505519663560186954254951434662734330112111162228597000, nat_lit 2289748937800611616751604174968762355438758055586097323040937233000, nat_lit 91999202546849374635605715461298379694277402790372184212017089760⟩,
  ⟨nat_lit 2021387770985803193303019491362395267567887954699114693670112218000, nat_lit 686531922440282015553509558948988728178921147848490038469417675400, nat_lit 4564605644059131014045864248915196122612994092053199174895887247000, nat_lit 119806484680753613035123368539253423643487408232675434938273096700⟩,
  ⟨nat_lit 13237100463397566805926689946995211244184046728503705595600823910, nat_lit 8493011657409377900735560994497153382369239478267638803567813222000, nat_lit 915998522691366715886823210990016368440991062616053176089356428400, nat_lit 9109061973714105965879144275864830894680363038865390781543764261⟩,
  ⟨nat_lit 963266269656933657998323954984795884332682047922409761877694888800, nat_lit 6823593021354713020962220296677572663240550276021450289255998822000, nat_lit 2008785859870449194606636904159165572604487938515713680932680870000, nat_lit 46246394079068797981385832116441450117417285418504865302599396020⟩,
  ⟨nat_lit 5109500637475729782006709525465298490905462099410034331589776153000, nat_lit 293776325972375893218778384768386947885139220142759270592010325300, nat_lit 3769911340852654680992776316508503637518216166902604481046813689000, nat_lit 52740294584830966670635560581104095033853483870900605131392365490⟩,
  ⟨nat_lit 929920286835934695908570435000259255051442528033664118100160393000, nat_lit 627641449672880042758245985731948956188065641656380437651299014600, nat_lit 76086027929480920216549689581370975141919397863335546995614502830, nat_lit 11005500905473874636528077572875164505642492381716754272058080370⟩,
  ⟨nat_lit 885250583661576104408086806267807404619683774594976759294013093300, nat_lit 144356797771590619879249336888871297602960518286558512357693949900, nat_lit 6825948910724184352772671492426461241548882194747120291773028057000, nat_lit 31741756453038119142265074098869199019338236333616426871630474860⟩,
  ⟨nat_lit 4589890395518578831692336894561465678901751372096353818414111367000, nat_lit 1809534450709162498649237383341220937630895147971404387406807229000, nat_lit 3516226852953584879117364847906878250239528502606758414837066932000, nat_lit 36470410296344994166410893402727269255221115119853910073528147750⟩,
  ⟨nat_lit 3041520961334929093387352578684663555440792197207020858109189918000, nat_lit 230970678146841399606872486023692169172609258292172912286079794300, nat_lit 1762486702624577520910906224954710749398702188588269112400389729000, nat_lit 58534038889497524254023988693773256292858138692339519714256143580⟩,
  ⟨nat_lit 1879412945201879596448731334182591996627192584747743318082560383000, nat_lit 73310052054034995297814983292721184609729784328280484583704509920, nat_lit 7188625909987192365171535855588953319481682154963226251105090821000, nat_lit 19429133588974244055201618786105519715618926636159983119548489010⟩,
  ⟨nat_lit 1225086401629849995722938019697370807546003138216115978596271620000, nat_lit 6774976700075785647893408446408760986156011572061461055563031998000, nat_lit 543470894166769552288959226049346261005080549390826153254346513000, nat_lit 55073806809763065774774353623318227265151387881627666040012334600⟩,
  ⟨nat_lit 919209099140270850242692561650852467051658470377809652543486133500, nat_lit 8720825611577300181244821957557397326497457245258124657278299481000, nat_lit 177894759499372254911929908394207237482337000128849520969598719000, nat_lit 13463305171576909825409650340523312095319740922648477028997330890⟩,
  ⟨nat_lit 548951752822770940710690510754969713123363965921766998677615823200, nat_lit 6969436139376676231688324423058097934149122343674464679017559445000, nat_lit 144928179966205747458118515880068647326236342609363487657574237300, nat_lit 30299192479220135009742321999421624660141368806516697235631721190⟩,
  ⟨nat_lit 131281142675456214307298315850995380199315884681523852296948881900, nat_lit 4681403207530772657421684824766786987972428862669181190368590256000, nat_lit 1709492450634495748239472542442811100069703167492802695667852811000, nat_lit 45219979748247015691143574156894764805543281005045161944164553660⟩,
  ⟨nat_lit 1599009658043735047144288429977412562459285522520232427995354501000, nat_lit 4937567085725856969996001336227430169565515951162832966951533913000, nat_lit 3348584891265796063473991865300422780410730030443584245899355925000, nat_lit 40437423336034210870654078632671749344879977710940155933339794440⟩,
  ⟨nat_lit 3670622410060861891600160744204708120501742374441389395296203647000, nat_lit 140338767176117863903761224796886359175678392586118442277930766400, nat_lit 5591420955003189285599358296202540832085490518251950289512038359000, nat_lit 35561647896054070770478209132433476205732219991075363138800370370⟩,
  ⟨nat_lit 6553101134347479187858040857053372821844953607045951016962298503000, nat_lit 1196095613538235271032795443600943900390753805743676610442602249000, nat_lit 2038093116111652668297315535657114686508183164359987754764229235000, nat_lit 49932473395581335093451721524221887085023072452015249008351335600⟩,
  ⟨nat_lit 184688456485131079697906569381023947673663384113339462932990930100, nat_lit 2740481592028682712195523294470182982402736931718035212446179761000, nat_lit 1896951676584623487444557997141158556011930875357802278520614740000, nat_lit 58306605285539451073771031558910624189926446595016685684979474100⟩,
  ⟨nat_lit 4204626142014355300063286934166341166394447853079159625570720703000, nat_lit 610640396669795102946584957048392457595260113220259608041633277200, nat_lit 1648212632123232793725530670994601958366177075781227438781426860000, nat_lit 92889630068850276487384479086574083176236927711672802160420474050⟩,
  ⟨nat_lit 4341202277728059358716060309510631628969325820555187296144951652000, nat_lit 3816869284795853625562145416829761211317103751113867241888795507000, nat_lit 1164948843090435946870929917380377130852693190940168184024677601000, nat_lit 60630228335953647909242001456650269336143976057906744209753601810⟩,
  ⟨nat_lit 3388244652290413356298349269239915706435814390756216863217885468000, nat_lit 5917880052503514665139054194016686339910193122268485047366081588000, nat_lit 555304444386638649329934513586027035790846087562165787617521154200, nat_lit 33258979236050870911616582180077631033445159950389022787706498120⟩,
  ⟨nat_lit 346418402393815622698189727223350874800883333423287089818526496700, nat_lit 7894870367243556953204909533379059058041674310727785943583230687000, nat_lit 577306943473776462685092373622392611575113223549912476132169407000, nat_lit 28156167699705253299361278400622227558292392543334994570177417050⟩,
  ⟨nat_lit 8288241729720923968006816095014773534735029754818909656866595054000, nat_lit 1440834474485152738232102816735387450521260791964908883786531451000, nat_lit 163401369840873831877849088897128279524282957186720304565138068900, nat_lit 6972429263089693318076204030281543799594047155029792568201856298⟩,
  ⟨nat_lit 5884040536638719381932994885658394252349982537330339280794008927000, nat_lit 1005581432404579758298536140376606591147233198235172404669207909000, nat_lit 111078045530320974379675287061042079151942697209042370626003164700, nat_lit 32630669418149115781110143515141062085851399230836789510602981760⟩,
  ⟨nat_lit 1250915005787327617598246740761974703581884985931413306054534897000, nat_lit 2080147453905428146415095536054492417404047212745998222326537454000, nat_lit 1834327075907607321873177744122870083719532451079625892663328372000, nat_lit 133301028904389773154886846149883074230565962581354653635276821000⟩,
  ⟨nat_lit 666486620384917444499601309917342871357187965405918739361779829300, nat_lit 74341046443360514753128785042819116282328143518123426715091417790, nat_lit 3936209682057868558644092118443520604284278178325214590126997167000, nat_lit 24083862081872129347617762915320394589256144999103818156208596060⟩,
  ⟨nat_lit 3845281756471500474191876975502064924761345872166058063384226938000, nat_lit 2335558924876750555758006759136060545671669869791227109493095911000, nat_lit 163553707149690043734162349283123639020140160638892819910500498800, nat_lit 46995457329142266582209067421793437221709906440135072752459812360⟩,
  ⟨nat_lit 63525857417210077113645348008375413248914959545299965760296108480, nat_lit 7355868472268122389450091620760052068331827119984463753020790155000, nat_lit 2364613273753508650778754332663309848614100558163611453024412613000, nat_lit 9519939982203648216694171030312135212326817952985519851537181530⟩,
  ⟨nat_lit 2488686026308513981857477223242718884556234911771709376509242155000, nat_lit 5566483277960575179987445142854528638802964519834128951194430389000, nat_lit 1888853025873145116986828425792705057060411042225817359300741543000, nat_lit 28032227198094359724158168004643821485059162744800242516044022550⟩,
  ⟨nat_lit 163123829917784948394690434364736126883005562634655769347084943500, nat_lit 990057204156313138750473448796524787546233992094483460514140024600, nat_lit 118547041037224288042198245121700839008573579216754670160497025700, nat_lit 8761883619429863743224716875292819956201443800997327746853643161⟩,
  ⟨nat_lit 583922646509007975293793418354674654442394615169108921266981823000, nat_lit 3019571723483717355044887238023623116941953353427944049930829750000, nat_lit 3035217089639992780797502787622276699308143393181480359348899796000, nat_lit 106425452406910640653501861470299364696314028626556620377484924500⟩,
  ⟨nat_lit 311873406668797003936067512714035796498969858321246833088242039500, nat_lit 6791691676726023636325142455988472860324690143810702853676575832000, nat_lit 2847656504954640596912106825992376757492756304510056862258683787000, nat_lit 8498385611630651180128248515033993445672406354249278369809239138⟩,
  ⟨nat_lit 2251041172563488495721608916580271875900948902884032506705347232000, nat_lit 733155598956375701179079662978928274096358461432986708127207970000, nat_lit 88024056313094599408392585287305715037566860059867676582180879470, nat_lit 22689010357954799575738542063710528782051410910533214264252303320⟩,
  ⟨nat_lit 541839601542654861591460827940848437313098289340921798751993751600, nat_lit 2297774295229175491513777299113906876160798166044783076827643167000, nat_lit 5011596173890558707263083630285683704454112785998960883050841175000, nat_lit 100440473114462475284967657099568954965577345304351128950894831200⟩,
  ⟨nat_lit 5994649031150477134249450125112212880475848227653131631811884190000, nat_lit 172156958368449638431050132477979276807398361914536253842856746100, nat_lit 854277244802009767402427654484131463398353018134446792773996820400, nat_lit 38628124454245786507179102751295292584045278265260908564593998850⟩,
  ⟨nat_lit 87042652582372100875824840936258818327286971181882154921284574630, nat_lit 690905272224341568668369232521962619359457887897524956137945479100, nat_lit 5536500066870093813515442739224742306108443238097292805233154422000, nat_lit 25539359284276397719654501019012860048255950637666537698237266990⟩,
  ⟨nat_lit 289289339825122600603934117612321961945608579940490745100165104200, nat_lit 656312906984224739237407486162094508439660785535256608557474855100, nat_lit 3875428108793278981214494275393089113605912389535226108773346205000, nat_lit 50896226275094365881851266903696946860283105447525627164049781720⟩,
  ⟨nat_lit 211100352967460769739748158562478612603986720716659385418218337500, nat_lit 8751692967111282841850812389990015426229575798859111277366867751000, nat_lit 121545308909628758996291864996400988708290157529017179482202607900, nat_lit 10796510074759465161115166137974507503733949480029688165838458690⟩,
  ⟨nat_lit 865376336914822318341948956488085351074902426275093933857491631100, nat_lit 148597141065442508312666695288458339336535269742151717274240269200, nat_lit 241494002695827994127375644884043478526892290226211086282645189500, nat_lit 11872099372700384383349432562577844426696804095924150249072903430⟩,
  ⟨nat_lit 519986928815928887103777999345069625909077342550154949523430873200, nat_lit 5455440803918395907551804681228370083257354891422010133472902687000, nat_lit 3796873790970170594623582611903115747475282530817409735863487703000, nat_lit 35700305110451380934506492172699628080267105051710313024620514390⟩,
  ⟨nat_lit 2416660058415539934364775204129798692522114196323334171989246046000, nat_lit 2541978705902584812538136062922822332677537984556347393162990901000, nat_lit 2069567277194266811609216128536844072474374693773501294940419065000, nat_lit 158019857398671953201869371577194621991676986722932038320718727700⟩,
  ⟨nat_lit 251220331133598120224872799825910956697680999840517053668100270600, nat_lit 92356909506382534086277468514938695422487037635494610902579327960, nat_lit 2298866103320981635180522211676902562024910624900669599080545949000, nat_lit 14371337691305813803267726457762224360513676527386206744763442540⟩,
  ⟨nat_lit 1705350058692797117258009934740950313407909788994144198340069571000, nat_lit 31580669979291692518976835843752000577216509632090049030349033960, nat_lit 5030083441299574682868070957789418333589872858699292174020640233000, nat_lit 24344316531556693798235705508726002695865646159150548032210147570⟩,
  ⟨nat_lit 45798758412120802194198481433698656055374076692874957192783678880, nat_lit 171227570348670685993392085838679190855713437981103769586363029900, nat_lit 3881816778002043876940905603446975787944852514506973769447387423000, nat_lit 9632791018058943989238980116403029426076262450569484528121657620⟩,
  ⟨nat_lit 776803741075933659648427592446916997786473205239504910960120420500, nat_lit 7931843033165813682616878493530771375637822577264055797480419773000, nat_lit 803607751996706902667966966498077886842025167386033364087364978400, nat_lit 41052956013165446239070369294890565300240982355527049584812119870⟩,
  ⟨nat_lit 5213044519156463023909722044237073050536792615349853866212347259000, nat_lit 2371888181014152243014999431375934871812906037174165314150556101000, nat_lit 108212185434928216451703337235481103363023447388163404134701485800, nat_lit 39012141186562304515587567608678324053706601263910305193839807320⟩,
  ⟨nat_lit 4889904261281222069298453862665877608904124095968685576812401589000, nat_lit 1152250819889835732341936990165765362675482206977881301058561188000, nat_lit 3265723700122942127028913114999239517414199726271787775113010483000, nat_lit 83870748126201888106737053767790979040093295926085726243328179160⟩,
  ⟨nat_lit 5810583981789681028851661279703534165346773306888842322704336417000, nat_lit 471995044983962140050840358642280590702158820981348548157891026900, nat_lit 1718696174976760967116916273248253443244257680718010432971973189000, nat_lit 81048032720736456175464283006584998057557396903987063966407282890⟩,
  ⟨nat_lit 4692460088315004244975671220122198670109831372681950632948827054000, nat_lit 2954489782659366807429247325209100796649592969092359548515498266000, nat_lit 727034909245771606886449390556847958045811040637607514778829964700, nat_lit 107872892045475304126780807285859303275807408358732512940190080700⟩,
  ⟨nat_lit 143909893014642748925651380784533628106011320218067012013981377000, nat_lit 6832422484795911353110344468097001916106929913666084189140448748000, nat_lit 1168662943367826090783680367142188956026031146087412933903969352000, nat_lit 35394084935772776325850430032792762674462742914117160368469184830⟩,
  ⟨nat_lit 2423376815686060764650431143226927526144395584092131709765452484000, nat_lit 4168984976791842163836297610931616012319695489680906172818034238000, nat_lit 217984399742095453540593215357803619647421266168901854416957379100, nat_lit 55841304467699782462751254208828690411879545950828594020040252790⟩,
  ⟨nat_lit 5249291274422314257172727687118826517052425514610428919404475425000, nat_lit 4111132345759422656758071744383716546660323605668736111121941058000, nat_lit 463172784261797239389398286573689926264943738824337539804005575200, nat_lit 29975825040625165487004176511825807814765377697045221983011642040⟩,
  ⟨nat_lit 186052899258862856986257352138671157529643380438972409365557604400, nat_lit 84838002703886222333321292119418731546539961526092309071320571070, nat_lit 5741442766612084843933876962282065386046274136639352340639542135000, nat_lit 13510150268601326878353418419413751681252924037129507237284199770⟩,
  ⟨nat_lit 5442114302647621262139561635835161103363142007292043178405524415000, nat_lit 2425532425030702197314115561127520289062886731942399403578727958000, nat_lit 1946061114702952662570173082674719118529654927169376948014841851000, nat_lit 46425732525194292342636720490363173018922382698283503719005995200⟩,
  ⟨nat_lit 1438368087606178288705326685159476893723554301348249723912241560000, nat_lit 1465449930312459794310576194363139800252336489389206242815820321000, nat_lit 795477199599624027444127600662752296175516510885534695059492882500, nat_lit 77246894654496498337771057400455561723652283737624603894862033360⟩,
  ⟨nat_lit 4188895532639351208193060726309641202720336747341139112583128508000, nat_lit 1564504005364991485200581268533889310583394377553998842228623452000, nat_lit 1612319381879840131666264525509955793619869402805162935974717225000, nat_lit 134320528209678693885066508870576548147551801241467811794842066700⟩,
  ⟨nat_lit 4371657573973153061693824881434078357345351628603706959418273087000, nat_lit 104339439583069611664679190846390614648955725488866900287277975400, nat_lit 833625671568590400825388319454813852152857879777567939805899635200, nat_lit 30885736475007019293287340327724661895384331137055591231828091660⟩,
  ⟨nat_lit 3770904327328024758416843725472878952532633204211221466275303579000, nat_lit 2033223459624090085293843286425253284204779933635403410888741313000, nat_lit 596952897938832904522794217605756670242634436362859000357779111400, nat_lit 82411432999118185240430324163628257094961212943062151174657738160⟩,
  ⟨nat_lit 3775910691695523205100843769984910156228960020744795810884411611000, nat_lit 4964821253614497469331384350855956059406873660294097041761098204000, nat_lit 430818338746549785453503672400486573225343428747195984743505158200, nat_lit 62365468757478046043390960986679976629486490920923245386935197790⟩,
  ⟨nat_lit 2077042771345455094593161477009574401431035928994945732652742658000, nat_lit 58395498882364972733962821687025328817172145794711172463147601520, nat_lit 130419773622002336466696781641549118661911409977267584485220222600, nat_lit 7568280771387923551414576080368780832992048515528956669405965068⟩,
  ⟨nat_lit 2726149367617908054601071932680413678310820937224336627133118776000, nat_lit 1640015453863695909212309744374772047292084182202324427063804384000, nat_lit 1200608089238682206047578851951549465855153412365063529345200604000, nat_lit 120580108963217231347603251946587327882504759673259910586313838800⟩,
  ⟨nat_lit 618074870310527489294833211825539480209305389289493998135086127900, nat_lit 2534708601229811404280713720516827216434351423166510225359926343000, nat_lit 738529489580857016295062553390190453593121177919574640731811979100, nat_lit 72121598812783183221560896312163467588315674028135732371807061940⟩,
  ⟨nat_lit 2005374826345008564177900061413745190766964569606587602703330522000, nat_lit 3039918590956306782000682879172280156800831469758378565199173702000, nat_lit 4942397735748566438162599707955628295827542902658620783863332967000, nat_lit 20629721033298973303589533346170860158662163719811516415896424710⟩,
  ⟨nat_lit 151054810638034143275384208973185421823274254104708726008937517800, nat_lit 851433390732900693231253470608637836591182533940585540410095196600, nat_lit 8807501752724652846694843629497810316616359791856336317604401334000, nat_lit 10308971241108671605078734336027328582424930406164098256928592930⟩,
  ⟨nat_lit 141158930490551417223178626564496240871232071163125705628900588300, nat_lit 1840211521987845752074395342685475781643768111868881836764757002000, nat_lit 4388146363239877289873261893824924875086856625817906516440031573000, nat_lit 49226830582759850856953932740654928757850815470453803754199732590⟩,
  ⟨nat_lit 976081720802996771899683177099129054247398839988923292925540547400, nat_lit 3322004791658790408146905913555810517826928157527701716612247512000, nat_lit 4850680183645971135953701991650293349315202940084439616636760159000, nat_lit 84253889516235451788765609615820605139861595933362122442680143960⟩,
  ⟨nat_lit 7349352560577873798643945085638205083366722993469308539021552327000, nat_lit 69425688293395056685368826765030877636048602094930225317907538530, nat_lit 2142867438606308977777338321524242434184493105102474488232969507000, nat_lit 12529484038057968037750116585261029201323404228888513847051179850⟩,
  ⟨nat_lit 205686817834487445517302418826378486611456588364767324782691961400, nat_lit 1950049744514656010537162168598412376922742051031224220802119911000, nat_lit 7687393447103683877926544615022629749267967157937697983624289874000, nat_lit 16125052278113013554494545688283723292453759655013550031988704050⟩,
  ⟨nat_lit 3203240144399862999210250971142080664104684919186124637983263591000, nat_lit 746889360677189651147662205422794143281962445538662344165034938000, nat_lit 719544321677424662710995682196045796533550487103950586858424563600, nat_lit 81582990381977501278390483581161449825095025637356999254980988030⟩,
  ⟨nat_lit 2474230992080855077910843716175280391012595136759043325552605135000, nat_lit 5217255839013016204628563027206707463788659563697631824570819155000, nat_lit 740610753102710778276839640219384979038779169137995921808472611200, nat_lit 92119963491052805838561451182097464173530000340602269849177203950⟩,
  ⟨nat_lit 755074760666470862926918653707056363870249992846699930747069009200, nat_lit 316690414462007683218510540148667087530244384884853679121320774900, nat_lit 5400153287459276848364560081519423890522714724730983729856256136000, nat_lit 52500659321682579760858217775332298508931197515171583561260309340⟩,
  ⟨nat_lit 5810055568239114498835024069594933075422662049370493878948107673000, nat_lit 67629809369762983022950666667161774796721540635913546985157205890, nat_lit 3874589840296432879912179134921562162507247214833507179471158205000, nat_lit 13423810671288892180626026137891622920508102315322575140342992550⟩,
  ⟨nat_lit 286472286508184180952379445465545448129047736440940246208530629500, nat_lit 8531833758867021625405303815683110546054379925155403012719771109000, nat_lit 1095785456123735975596303618245591852322312719609335412463239815000, nat_lit 12670398625020198200469072647842936114582772150760417144301289810⟩,
  ⟨nat_lit 136726895710414933616083942421893815976323387303803820172765826800, nat_lit 779658003088605639339430249170339827877160091777415572196400424900, nat_lit 685723733743330968377482172533011723115484293711419364056809061200, nat_lit 15109375419615164363017449840335054620180110584756204074776283670⟩,
  ⟨nat_lit 189545082047212682976293520787192623798238524806688386766556071600, nat_lit 2255894683743524218276496361477481862835706242134245321084554916000, nat_lit 191832566987428208979269249758913970153249753385214448848498722700, nat_lit 20915672750156376385185177456412931616474826232905281438075458690⟩,
  ⟨nat_lit 5968891378142529673148358493350931623018918588572743545879243145000, nat_lit 1564519741627502107632209739266635144414894552352188941125793078000, nat_lit 1394829813547609627401421486788256725721704446630225948798412795000, nat_lit 97107145940567709482890651809343084912502131995794824953043300230⟩,
  ⟨nat_lit 175797873795855908582423005538199008448229786554320527638540919400, nat_lit 184464367887018196757421634309436813441444252930534274068106693000, nat_lit 181595559817245996948920527902460819430488760070005368741876361600, nat_lit 5922297520236371393220721480920380852491475138480782288660950721⟩,
  ⟨nat_lit 4963872111931625258560221519797913820131025242873731704325448417000, nat_lit 782538012293602045644374164936401698531723097646906995049442662800, nat_lit 594979377022610412025502094834650866861362542700292410146585659600, nat_lit 69959575837885758515334031031553171795864635906691270390904732170⟩,
  ⟨nat_lit 3722289686073903087116498428205591004785402145000335248063209595000, nat_lit 4052699196163401726292636568093848482288932411507446339442070314000, nat_lit 162558851458889176322869645590874637631519919205224277759022896800, nat_lit 59421919161971986482101012774842628386570516092895618510996697560⟩,
  ⟨nat_lit 623177480139583984969505241076396465403368949994735017222285166700, nat_lit 3707170130051693487177431660890188666887944094747690530980064155000, nat_lit 1374924910960908040310802936800351958869819639846154279917689273000, nat_lit 75885464846928122885480737748995038480846863436223195161099939560⟩,
  ⟨nat_lit 5803829662882470519670909801953590067125696873273454520444018039000, nat_lit 11977095169532495550396701155767447834349096544470131266799169050, nat_lit 2687398065461832371177250590106251823505448400726086334096444444000, nat_lit 20183361110205160069026468337492666150185178609020084247058371390⟩,
  ⟨nat_lit 1928525237596405159207565747584874945749794381788009276829962691000, nat_lit 3368073173740501251901995523692569057306961781073113468966763011000, nat_lit 4211134252496633701467214006335792848103121097823621648062136475000, nat_lit 87850756076930220649956428637168939586644542624164079029822893770⟩,
  ⟨nat_lit 2599559196325909527835223045325208412049074041093769687488864347000, nat_lit 4175115362091151134228151980631583495909913867804861253686815662000, nat_lit 2474182613707833237867055302725432289189321084850687696978876151000, nat_lit 91575632681193431401837714913517055605959988594416736717450617340⟩,
  ⟨nat_lit 99145667907686290232909528781200778022724659845466566756797506390, nat_lit 5721633608916377529591394661148163936322052383976097020416289072000, nat_lit 665539536150144872262904256419427702987833743733206341382358314000, nat_lit 22391757398769744366840847703230993625506946996973495499066639950⟩,
  ⟨nat_lit 3684381771449385693542787101419586296858580940043537346040471071000, nat_lit 201101556079617527740288054304026767828668613599603463298215042400, nat_lit 183636430849769881744903109801978899954901475001597473992578829600, nat_lit 24919809387749115257000682566620044607938883783687327371616072280⟩,
  ⟨nat_lit 3476327632183010916164783451849858992925923136711344621677086040000, nat_lit 4684288885712960312196383192471535938662106724645454336187179961000, nat_lit 1493552065065287175255063773341697603679853910093016900119846374000, nat_lit 54601437283112294751235102805068585679367992142633621230233782900⟩,
  ⟨nat_lit 6299513900770832745038563218589191836582720886942809854745827460000, nat_lit 3481941094145954713937073413210268878401650346821165760100669832000, nat_lit 121326299212920793679326418173563610272669551412987753221522980400, nat_lit 8510019845412764633978935780299671892061006750895676338757924007⟩,
  ⟨nat_lit 1065499285835483031853983425374266812412175655895680960981888502000, nat_lit 169032353191216084403182708796469838580977307988945054724152068700, nat_lit 8583629066155641720074202052436295507954259788107728040120519351000, nat_lit 13816422046702354409947358730864767360291156318003552370125008170⟩,
  ⟨nat_lit 35590596553626362340808686062388223667427047777018536823495531180, nat_lit 1414525224703397365698301537904259542601347820500251763298607763000, nat_lit 2877561455299664353046443359672641467274943616113992931025068102000, nat_lit 22045167921880404775991155316199357430784709773370448078491912250⟩,
  ⟨nat_lit 102213319437115498415811868625428770863973407591839411721231911200, nat_lit 1811260455028769000860429630351142621578817496293477474068063828000, nat_lit 998568530543041909972159939645767142926228863246219133862214338500, nat_lit 26749648978583293734242657409110331029401495087515078616060249870⟩,
  ⟨nat_lit 2474437010640446714917973629633945925999578255859359105483774296000, nat_lit 187234241672292906119574871934519783782357675629236854781542305200, nat_lit 7192811161179726305563669519413980639958230667454192295298563096000, nat_lit 17449160632704503639623372784220209543748713520475247520037831570⟩,
  ⟨nat_lit 8668103478901305222890515847235991187498414529268710531690039577000, nat_lit 135003554577538903154875589478574004805877777334043035589282586900, nat_lit 180516218647809741779454020368452266760364900633790415639252782600, nat_lit 11067458552275946939484576949330682205489216653805798562031382250⟩,
  ⟨nat_lit 604216403687172170015890972420449299896286880164350447129298735500, nat_lit 694430978055366601677410492832202950528377539092690894610153609400, nat_lit 1091491971550547798712131224419807596219708001655451200458525249000, nat_lit 33659768015061381836286623554699817770593491172085099397000674590⟩,
  ⟨nat_lit 487167167345037994914614414859655264263780892688109223333963474300, nat_lit 1340832672264463430368583704270531821231319929530304801075622558000, nat_lit 1799954712863809899338554202873696503393727619774995372302296174000, nat_lit 67013345174116950726015113256347358189949539114879341380403355150⟩,
  ⟨nat_lit 465486820816257882623426988857816822757902414201012964178819461600, nat_lit 1801926704217277006911325023975755305258370596518351877734412743000, nat_lit 3109152076306296697238123390504408616241392109654968124434759846000, nat_lit 65874959508830180452376635474866647254938601254902968800922240610⟩,
  ⟨nat_lit 860139535790606276967924998096805436807692526627389534591334144400, nat_lit 891244764765098481474214934882520413165280644108444195349538792200, nat_lit 8140643888559718014734937228118829931473271242039844472058924503000, nat_lit 17714250051601623411472948989793851045382983929292096880688085260⟩,
  ⟨nat_lit 204683963911942151862152387070384789593194680771207142717695007500, nat_lit 3860786557678877202688447039320331415475122909464352144380652868000, nat_lit 3948111336496147174975144104925113502995920488868732914229324041000, nat_lit 66405000958561673260242070570836531618609170745523786934113002560⟩,
  ⟨nat_lit 3343350796967243454288359151078871154780061386873713917919050329000, nat_lit 3485338078819170460231412177071581871465993941482238793740284615000, nat_lit 3006512333342201658619159026371024683129018947583441802836246985000, nat_lit 66997273261191339647499793524200637197774217218610577642515920880⟩,
  ⟨nat_lit 173765172767588499713438101771441041111924308114675885024149510200, nat_lit 146511396319320316111835371583109893284376477200347692062824018500, nat_lit 982974944065545029410548292515699627958530912101098068885089746800, nat_lit 11091489780676612946969268839536270037165598885475341356719623200⟩,
  ⟨nat_lit 3707674421701883203624999811922093008064750005551120218753618376000, nat_lit 2791111035693254084684531510507577822911238295240492637184156385000, nat_lit 1914163431994507658660175873645762352498718214059174071328823337000, nat_lit 126181440059296239379182803856893174099303159540920832310748821300⟩,
  ⟨nat_lit 6695661209893021863467908709266721832511421157337600136896005306000, nat_lit 1904513232739931401796106005784729464274116906997974868085308659000, nat_lit 214676399143992933850541492747411549083432601380586255069871296800, nat_lit 48779747928354218599464340103939863038754313309735713008314883160⟩,
  ⟨nat_lit 721985504991162278258255137638934052494896432215903263752649662300, nat_lit 1093840375282026486392087960583480756316589827211931166626050937000, nat_lit 412708324063884504139782353563696418317620756107546446058413442500, nat_lit 31349077818909503479885315154623015949513002694989298125601747880⟩,
  ⟨nat_lit 186822867527830183134341023162070790731611324399987969230497660900, nat_lit 3709366257765843009128100721836565583422827423879939917625239614000, nat_lit 5249650658952842035905525879044105658379099558933233221583241633000, nat_lit 47619520146941319742793461848788812470241925484329781313728114230⟩,
  ⟨nat_lit 1031846866069413345509264712061821209795727721158550743543296906000, nat_lit 6093753916076377173885854628650696545494100274195001521420189388000, nat_lit 1545275087616811916931175833439505094574067917433691923566326482000, nat_lit 94128734896071344136965240605618447135512742020828136025414354350⟩,
  ⟨nat_lit 8392477420732161061975695591093560880230804653069391948972402828000, nat_lit 811698995896217840473879061036416885104641501445977714491889494600, nat_lit 120927038547459876214275604456257922631133124085129323565754598600, nat_lit 16356545560756096259677912939828057104620205733153073110859333980⟩,
  ⟨nat_lit 2034958255875442141280740469055707852276749244866265281657815552000, nat_lit 6187136205669969363830108744660519824400542016136206506085403284000, nat_lit 1239124306751840844100549317138362800046493035859843544425813081000, nat_lit 78511586193579321183445715736502924516798864545137374180722000540⟩,
  ⟨nat_lit 233096526104797384989676478887251394196745139790094769134411474600, nat_lit 1028882422757021156051042049964275734892082437038944394059223396000, nat_lit 6640838461205430673695711573531694446404872492099427138539435625000, nat_lit 51751581794294298237871819488774513829226152776049197797014612400⟩,
  ⟨nat_lit 3368208436557667990109155630123493606322240286576986534248278739000, nat_lit 449054320590905143209321285738495990386020601226405611831041359200, nat_lit 3113438347181388163807141064995828359133175802979342502957934957000, nat_lit 56886428121561780962744133683852208399868373727694207260925268530⟩,
  ⟨nat_lit 7282068821124298870149928845110050560191961290781768076301341536000, nat_lit 169817351430139600955222833877403942791922008364302275494698457000, nat_lit 192493151917272172795374345878324307028025492970978077084453788300, nat_lit 19680458971151150053878018033095300357604505031924082421403608140⟩,
  ⟨nat_lit 3170003442313028901780777715302389101445246989753205403780917178000, nat_lit 1412925823925570353000003804111278549254907872327011811813672117000, nat_lit 3275303024676495632857832665792079448507388316567881328597325273000, nat_lit 147507681981351403623331131299826428663358964865193132467952781500⟩,
  ⟨nat_lit 2123844962260473262983939445019383957269898465563815095730431521000, nat_lit 1096879266291392855186755573766080523982974947187453668219283012000, nat_lit 6751942473274485874761893047033156082085080671769370132076905785000, nat_lit 17580230243518339878265069227364549604667777330582571474341962510⟩,
  ⟨nat_lit 563469735892561044345204705186487662862896575643845313496199596900, nat_lit 4907799028276332169485393147270028540007541237138521694211922862000, nat_lit 2182123808584973640775825486140638838901034714278321408349463750000, nat_lit 98744283663821209238284906580432660245194940151783442431480808660⟩,
  ⟨nat_lit 1361049554814906635766250798945740981103412880817576526680730009000, nat_lit 92435343734025380727697921414266917269185648751588770564063756380, nat_lit 2179353479870543564304077518461909170302373472275973638136293077000, nat_lit 29468288569682047099282539457258782412908970262307985969889418220⟩,
  ⟨nat_lit 775878784843878973387615308536555863311939448846058652498047961800, nat_lit 973984336830514519668464640061549298138132832707286600097828976700, nat_lit 7601226152742639560774147593222682147191844265107464564691935783000, nat_lit 43466268746265660285661866594272828603176159811395358447661887350⟩,
  ⟨nat_lit 2079767681742354687383706291247857381281552247872454460466341050000, nat_lit 7020886340920630736970254562895332390490914617328103084325963476000, nat_lit 332865522916110680299630840777620120922887198594983605051880952900, nat_lit 42345554006132623132109311226454636673237566858651553435437349940⟩,
  ⟨nat_lit 5939570802259585341822327821883987038731320002019629429573284054000, nat_lit 2703256039756099502770743428580833251712483916742289574368599910000, nat_lit 808613988377658003764811010019532418462352660926354389876466494700, nat_lit 65166550963017936112619475721025641067118024449495962639403217280⟩,
  ⟨nat_lit 4714991395072986646496062777850277252576705464793875164197481614000, nat_lit 3844669666766358633267900966578099490263605449676200776320524139000, nat_lit 1402395974825106512996543819645746319432569005650357407525183621000, nat_lit 22946863293572638265992325198752693082849844945793055630660522860⟩,
  ⟨nat_lit 46013387225317921577869852122902460759969637824506076456343475220, nat_lit 623462566640181825209085720330166435683192199215725637875160004800, nat_lit 2000158728638744487055508485655142043134830319962176256332640537000, nat_lit 15862424905356120276002823242860253030977203201325489022565371900⟩,
  ⟨nat_lit 4625289360638351015984529032182798002812172711960976982284254423000, nat_lit 45747148799340401075526917159561411600971409260796863873869593370, nat_lit 2164099641530858227891007948179260712526512803371682754194323557000, nat_lit 31720207271265071384912579886893347083219521030694354233714364450⟩,
  ⟨nat_lit 170773327074099304722958509663490077951666539599231640897934674200, nat_lit 9439685635830315806341430263721608334892364567503517921706940961000, nat_lit 213331812270994812414629392181394173046842504093611921208225637400, nat_lit 6465467005981786316479660966668705126150815355204394071709597443⟩,
  ⟨nat_lit 213497964451394602512809289741474281532403361556579442995110960200, nat_lit 175274217750624575945315510737167666319792385770886639313485477700, nat_lit 9426112327288288581620341598425551214113230763035427953917116335000, nat_lit 6733458423383813479299565671828572250584783413232393903527877479⟩,
  ⟨nat_lit 174390129975016851112694287643102466564288148701264838812144762300, nat_lit 3396835311000472409505023088677903915056595321659527820139424872000, nat_lit 6249231618958005030629199567445072880699733687644178045980189502000, nat_lit 18897420822636620231120725350393288758738655900227739133682869380⟩,
  ⟨nat_lit 1060117474991762537389797662631232968132834019322979022970854479000, nat_lit 3346199463292362009131823056842658902495472744297167883352475054000, nat_lit 152755071208872165261810888728777005620006920668074747865085478000, nat_lit 41907694221857549424488745198214808116556898392650654240789140840⟩,
  ⟨nat_lit 5348605283146589533763666771219580436128643641537508672290117496000, nat_lit 3648585952420912340814027363698416652752969466929645469683490416000, nat_lit 123744766979084798626327401060383699836330436562128135867156762300, nat_lit 38837172664679654471807798690010165972455433414362376572196447160⟩,
  ⟨nat_lit 3003444010033492990870416099293699250470681050726983833903401645000, nat_lit 4320725913631632718810618493342416160887143256466308591188680388000, nat_lit 1361477535839049814567766980240497396641248817193883456953278052000, nat_lit 67976430840034886307659171484584613685492539850211352770256320160⟩,
  ⟨nat_lit 146936080531814821426553511648892129606271181818497001068030905900, nat_lit 757804152015017464107269957490832657274213146387493974079683566400, nat_lit 8130279671505999009797721147813858473903786833906293947458069005000, nat_lit 22667697977936163548776902113996203090109460142889210442997380230⟩,
  ⟨nat_lit 79640595312718902243096270244618925811505724781131003261221386830, nat_lit 5552266727354732383784261802476905155760160714328582712349603479000, nat_lit 3692085538636438618045233832917020703027998967497458948184219257000, nat_lit 22551957574353718477056658375568892104821623223145269425945766020⟩,
  ⟨nat_lit 1441171047353248648038473788256042180149434174884383752361442789000, nat_lit 4771103178995261322405837728883522605342741242347892804632213816000, nat_lit 889677416757738157045685881976351541981908671075980639160966802900, nat_lit 107977616882021852396515636144221680986029580961580350536048622900⟩,
  ⟨nat_lit 1688282816203245328301247904183999520745443724559645184735842628000, nat_lit 1747929157957496285972234809284538792477289240596689560401072870000, nat_lit 5012006851987394300262509296152837183344776555118470405705607218000, nat_lit 134949914363579740302680583896866304385667271892089471270493807100⟩,
  ⟨nat_lit 1606314967563064892531671220957700832378521586150128853896334979000, nat_lit 7559175387252305893648431905380845861157745174718098624119682680000, nat_lit 801957140596569926521070539331058928700936460828173055290706889400, nat_lit 16589528140574194438695211565542730998492239846685641546164287090⟩,
  ⟨nat_lit 2513197055268167822162985704504016066859775029550868369980250890000, nat_lit 1032690797294146711365865772462412172849518467572004173080513003000, nat_lit 2498656215815960772456021821779581720328328062705457481883939039000, nat_lit 136218016454886997009302954838376569960826535067575088792325866400⟩,
  ⟨nat_lit 1900881526900539593674679478138958788308153132828047208985236651000, nat_lit 1781553480393000681025705080128516654103530240818580485479739661000, nat_lit 5790209474792402378423181967597066009940121070140001926944607052000, nat_lit 79868035709945150521217133130087461820819790321315005227138876420⟩,
  ⟨nat_lit 40386165376342930549686579066988071684324869681037359600159484100, nat_lit 3355107077241521947835309938783754408883205648768278082431233925000, nat_lit 3105722176466401322104547084884497899029599784900387627016464570000, nat_lit 27888383038405605469635315505663169872454041096541567307379037730⟩,
  ⟨nat_lit 5554599033042431103909711857581309128276626202379979132793179620000, nat_lit 630221809205802566487108337708674546441427275695664522764769355900, nat_lit 3673223808847935515486602371427662044135694394764831147796226335000, nat_lit 31702510263368610002421367941344670415980377331164637784007081790⟩,
  ⟨nat_lit 85955728031459007710590034320737427236305636150065023178408882030, nat_lit 2011349184908165530362238940624675185111821802157824544626365961000, nat_lit 7087768407760259208575003296772833082869953767876594792382197546000, nat_lit 20888843460983970011939558113426904852066361869777056539247417880⟩,
  ⟨nat_lit 8150218502694453784134097390516783385455705332353841877141410796000, nat_lit 694941075704458015364172765527982783893850370509299424487905260500, nat_lit 1039192562778495575266555060033321553917980213448878774366551601000, nat_lit 17993013462312076067392491595356076547575657158037673606527612430⟩,
  ⟨nat_lit 638588804185565392476060084544526764073981536502571068354154580700, nat_lit 5047615455526867295155060724937355966746483106497316548510252097000, nat_lit 3303100960290545959756112408491948045648121183409886631455077408000, nat_lit 82721095716464155102188739968299170793771357758530781740737876810⟩,
  ⟨nat_lit 2507630912383941868727064054906470633897674858578160250331158537000, nat_lit 2729258691729783574191022270677563008304446386423118200086720033000, nat_lit 3323277817796908276943393411903747428536894813157362906409946793000, nat_lit 134933360082003832286989786260090561847145119493394103151616927600⟩,
  ⟨nat_lit 2007511057900461727839176549313206262655638953205842040572263395000, nat_lit 660932567335670056820980314956034830345645029973590723095353809100, nat_lit 6590854663954879179839078194134259489657775417643402366399250438000, nat_lit 52325946636217210933218808619419470356557550907501107055619555790⟩,
  ⟨nat_lit 733171499465765665612959551396829816486083816202315930558315787100, nat_lit 204252482641709402056185794301488522417298365235885015543951082700, nat_lit 8126580397615308170095633519177460333621638273661595535229135925000, nat_lit 27487966562170030551141609617464828168200704699134916676170207360⟩,
  ⟨nat_lit 9626844792215000800168526295231546079480889907473732700826189134, nat_lit 2311365207415770197781318804204938046394636374178031710559999353000, nat_lit 5693507233350823012646011097039915460736634840954852152373206019000, nat_lit 20382788795762942180285529317787897020319590212583681978976410140⟩,
  ⟨nat_lit 1094511511929398720299703201795927601455999965261098378946069823000, nat_lit 7868397227728236942339964555592849543326586026516477440633346283000, nat_lit 64245307887686924985114625060619595803376539947764888565280004010, nat_lit 17563843904672581951774401046314693865890987557841463376017170990⟩,
  ⟨nat_lit 766879585297225479509424862021523676973025936336147682915452976100, nat_lit 3923722327547464840044973362782457482378902973745580431249517705000, nat_lit 5143632066521120226991346141110280431159845321059520528495834673000, nat_lit 37368295584656181199788387359898457507452765480827777653875123410⟩,
  ⟨nat_lit 1074479992257070197961927109870455381056374808942745441029058236000, nat_lit 5060477260884437462823317617905313914637682492083433161510221343000, nat_lit 153313088892004381602408775356821934367669016842440926016194042200, nat_lit 45384409102383599892582077235480268310907381083959488222845667540⟩,
  ⟨nat_lit 4482726203821599851253059079468805951880810932113360945949439788000, nat_lit 494257324357876788818816960960435435880094645168306217639844860900, nat_lit 3084600718838055737366124658265054735707613365280737884513951758000, nat_lit 80367810565051463074712107492559620882572900282096595637074486710⟩,
  ⟨nat_lit 954138863589370191496803210434410387595491291549876199584731545000, nat_lit 160006621978781644357315469339131742752627658663522947196706054500, nat_lit 1040386266009801031356315703714155503272355310571371027851747180000, nat_lit 26887012623449751916034491872246980920950742782006127695104031330⟩,
  ⟨nat_lit 1072877952913166410384517432913590922299788800061952973577222648000, nat_lit 813118144570529718781078504936989904325561118878747013479020723200, nat_lit 6397492816679954538186028762091466158289548377787971002855786660000, nat_lit 83530768384927888510587145093976265208729647370258387706029834450⟩,
  ⟨nat_lit 1855859375501377070002561832116980211440093821108643321125653496000, nat_lit 5908628883501179764581239658751471645061530609986704042260612450000, nat_lit 143309128216857130599590288497451420054741675223049191246841514600, nat_lit 44538007070779885586930232575389421143731753678179153127418350640⟩,
  ⟨nat_lit 2218582405832149023719700794794996121624355213386590519450066604000, nat_lit 220421226371595011348197885454558539861189876950143426564401521300, nat_lit 5834232656930696979775824138013689729466259147325657634368826936000, nat_lit 54363127360231797747514619895719196999186299356342536526129147190⟩,
  ⟨nat_lit 7302384575738921177507541766028986930209309439965009803248038145000, nat_lit 9378524123601055788909748563675521027505320039130927454631852239, nat_lit 1125996396589630007687543380783479563312583148193574969539706778000, nat_lit 14720254759590412470878429743914525945560938625215964015614515480⟩,
  ⟨nat_lit 580586344585051539951644345138011596120011415674762745669637342400, nat_lit 5956519501082720895439786062205574705080741294788315461801725254000, nat_lit 810875661741848622073814006623737063053937806375165881718592540700, nat_lit 61306010563595082549909285718077771908988255262925350854288618210⟩,
  ⟨nat_lit 2389171278053806616211642262619754866628859518418607649863632392000, nat_lit 98913136944478629759150633780270351705722168427466590837171871280, nat_lit 2845231219454098449490750839629723563990519680894587361617571222000, nat_lit 28452960209407927972783475282882388027759736806478926699065632660⟩,
  ⟨nat_lit 7532838197915281532518292349830279555140914880842442126217722026000, nat_lit 1168000003080175839903833601685490385570904048807156771260140646000, nat_lit 736861449939925420122591970194053004001441582422193328195451335100, nat_lit 46586180042026480957981864540770091036279895408126272716838106570⟩,
  ⟨nat_lit 2987340413848529311037535196768544429055480580917234696771657570000, nat_lit 1943515362814522667404883558211514050094765566703899496503062985000, nat_lit 4915782218298422743756947569869623695285919874728036458252929165000, nat_lit 38433506446375685682375991421065782433131153882875950287732099840⟩,
  ⟨nat_lit 587395917205563277036667494618140787942118650945992238592417138200, nat_lit 2042665015523637143312673980163569810718716006072160895138750664000, nat_lit 6401885484190853310023636917123422283352291330288733412544820296000, nat_lit 69409950474717691298895232545950972804002819373259168349724752830⟩,
  ⟨nat_lit 2424802498704876430635565418511761212376899416810786267301321810000, nat_lit 91638249163072480173280369544461303627208476046463518956872082060, nat_lit 891594535230718182506109781156300069441573544592576671128047433300, nat_lit 26790497926301959968488314763370794080863040800998062687762150120⟩,
  ⟨nat_lit 3675217889189664829873742335531708499020253218459684333378634386000, nat_lit 802328827919855235430904939018379690980680505765063162215767734300, nat_lit 5284798167399619108876250194968634317568965139343790108348001662000, nat_lit 55069895443001048185558947316004198633842607647549224203575829060⟩]

theorem jS15_eq : normJS jS15 = some jS15N := by decide +kernel
theorem jS15_in : all3In (10 ^ 67) jS15N = true := by decide +kernel
theorem jS15_ok0 : row3 (10 ^ 67) (6 * 10 ^ 67) (10 ^ 64) jS15N 15 0 = true := by decide +kernel
theorem jS15_ok1 : row3 (10 ^ 67) (6 * 10 ^ 67) (10 ^ 64) jS15N 15 1 = true := by decide +kernel
theorem jS15_ok2 : row3 (10 ^ 67) (6 * 10 ^ 67) (10 ^ 64) jS15N 15 2 = true := by decide +kernel
theorem jS15_ok3 : row3 (10 ^ 67) (6 * 10 ^ 67) (10 ^ 64) jS15N 15 3 = true := by decide +kernel
theorem jS15_ok4 : row3 (10 ^ 67) (6 * 10 ^ 67) (10 ^ 64) jS15N 15 4 = true := by decide +kernel
theorem jS15_ok5 : row3 (10 ^ 67) (6 * 10 ^ 67) (10 ^ 64) jS15N 15 5 = true := by decide +kernel
theorem jS15_ok6 : row3 (10 ^ 67) (6 * 10 ^ 67) (10 ^ 64) jS15N 15 6 = true := by decide +kernel
theorem jS15_ok7 : row3 (10 ^ 67) (6 * 10 ^ 67) (10 ^ 64) jS15N 15 7 = true := by decide +kernel
theorem jS15_ok8 : row3 (10 ^ 67) (6 * 10 ^ 67) (10 ^ 64) jS15N 15 8 = true := by decide +kernel
theorem jS15_ok9 : row3 (10 ^ 67) (6 * 10 ^ 67) (10 ^ 64) jS15N 15 9 = true := by decide +kernel
theorem jS15_ok10 : row3 (10 ^ 67) (6 * 10 ^ 67) (10 ^ 64) jS15N 15 10 = true := by decide +kernel
theorem jS15_ok11 : row3 (10 ^ 67) (6 * 10 ^ 67) (10 ^ 64) jS15N 15 11 = true := by decide +kernel
theorem jS15_ok12 : row3 (10 ^ 67) (6 * 10 ^ 67) (10 ^ 64) jS15N 15 12 = true := by decide +kernel
theorem jS15_ok13 : row3 (10 ^ 67) (6 * 10 ^ 67) (10 ^ 64) jS15N 15 13 = true := by decide +kernel
theorem jS15_ok14 : row3 (10 ^ 67) (6 * 10 ^ 67) (10 ^ 64) jS15N 15 14 = true := by decide +kernel
theorem jS15_ok15 : row3 (10 ^ 67) (6 * 10 ^ 67) (10 ^ 64) jS15N 15 15 = true := by decide +kernel
theorem jS15_ok : all3 (10 ^ 67) (6 * 10 ^ 67) (10 ^ 64) jS15N 15 = true := by
  unfold all3; rw [allBelow_iff]; intro i hi
  match i, hi with
  | 0, _ => exact jS15_ok0
  | 1, _ => exact jS15_ok1
  | 2, _ => exact jS15_ok2
  | 3, _ => exact jS15_ok3
  | 4, _ => exact jS15_ok4
  | 5, _ => exact jS15_ok5
  | 6, _ => exact jS15_ok6
  | 7, _ => exact jS15_ok7
  | 8, _ => exact jS15_ok8
  | 9, _ => exact jS15_ok9
  | 10, _ => exact jS15_ok10
  | 11, _ => exact jS15_ok11
  | 12, _ => exact jS15_ok12
  | 13, _ => exact jS15_ok13
  | 14, _ => exact jS15_ok14
  | 15, _ => exact jS15_ok15
  | i + 16, h => exact absurd h (by omega)

def jS16N : List Pt3 := [
  ⟨nat_lit 19776705270706660273700785222980196326390557226840097830394435920000, nat_lit 68570657268939400568667847905414766479945360204125429542403587100000, nat_lit 5180058598761956133720745052241791341346898658418559569906963279000, nat_lit 491822553948333641163928971836505138543758153980979003677437040000⟩,
  ⟨nat_lit 13016224017023742430766026476698858634657830094547160070980521440000, nat_lit 43734619121690036346268003197354752076309008571428313812044190670000, nat_lit 42596575039364086213074335043621280987964424711869150334794486740000, nat_lit 277139384421601065994283812856398547116558617657855618779754916300⟩,
  ⟨nat_lit 24815150007274976440083104985327386795017506876307209370689854590000, nat_lit 2722765536268149246159521563947289833752743617396400547167519927000, nat_lit 23756888050716174343010696471502169746026271819106294290050257940000, nat_lit 348486818182252621175547442369485679898157755143508885186773706800⟩,
  ⟨nat_lit 15533218396276181457895493164616190946681799135806700517644207650000, nat_lit 56977148419100855373642413503821766462477426200734624023784413320000, nat_lit 1550115860858741605213609135582008927203624286697248341516809954000, nat_lit 378168772741406708483611574256999186008122357874073675934990186800⟩,
  ⟨nat_lit 36731817369387834916142664253447174610088839387876999679678680090000, nat_lit 52580874953340058609879688369237203634690465098721290752069528390000, nat_lit 4595893804223797515669492803795551084365622186989158536718419453000, nat_lit 525282418903583004267300549896938348605907560178597613244439601400⟩,
  ⟨nat_lit 23391356575248202164633218460009003216164821530464479547365402420000, nat_lit 25684684434527839858418329407303931312992488010913738191846403800000, nat_lit 41673555427632727472725211507601216264797103027474159121765015000000, nat_lit 1075098176687715508106227736061185931719186711866597123266336681000⟩,
  ⟨nat_lit 10095283701800863684881117332827126742206365704325686796443717180000, nat_lit 78506664906172644242512485718441681215623230488643154296721127420000, nat_lit 10003392293011597316866762854493342445128441876841445017502591040000, nat_lit 232842355223236546400066212237060780517921075330718883265957606400⟩,
  ⟨nat_lit 24848710470855168799481881268795371380725633021601754526503096950000, nat_lit 15800675177282417907843759703604812076098104563488036389035630510000, nat_lit 8236825269435949231852525646054565362520990847351624751210772752000, nat_lit 843867294736261926211722507275459453998748002082151641254539982200⟩,
  ⟨nat_lit 29446688949117016676016586423526651211539758833264444664379420300000, nat_lit 15365146201319818491282851822838257885509154028959371104916344120000, nat_lit 50070742176144224865327576484529620986652330803219751318472639610000, nat_lit 774613960656501397583819086557761695900938651183479390655258776900⟩,
  ⟨nat_lit 33260409022190167915442997780767926374496297482962656888192635780000, nat_lit 788851971547583252150960613683655601351762341930598169551647889700, nat_lit 25897102510916939302718932918782785420112316160521878079710927700000, nat_lit 271053939513348152551156394262055952614121568294164791134910106400⟩,
  ⟨nat_lit 13867910409195632842037664679473782066189424673438356100139340450000, nat_lit 25715633096657056733118541027114608799999962698182256497202152340000, nat_lit 58660550423369190146782004202974963891917891088942109827350869080000, nat_lit 391983613828455607308205858227523966334147631185763530919178144100⟩,
  ⟨nat_lit 1874616149989119863139944185213658043459154038757069182550329773000, nat_lit 46950695203633100225798871038087571847820101231623295523697331880000, nat_lit 1300019791805651807670183835806048147919243898354603709214737968000, nat_lit 161227393722039572597359085532264669002063049637699281346568559600⟩,
  ⟨nat_lit 57341407475396728589696756321325355173083887646040104618045521520000, nat_lit 7847972623133376156331654620037389423057388386537596632163940459000, nat_lit 33330026757001948339299616631960400181741750834283479100152262380000, nat_lit 330701663698185685796206154108199030437521823274257135123346051800⟩,
  ⟨nat_lit 7106292657340873625524069742250002055713467862429769771067855670000, nat_lit 16088250183363178040934099100624807203753942331097178080616380910000, nat_lit 19195807281714487778446789749307191156076023027646517665621743660000, nat_lit 723901548538099751815136946192587598909878309967446176100666045300⟩,
  ⟨nat_lit 17604843218445395964997432605589943417716302785995021201532229800000, nat_lit 12507398056199043125313703836138650459727100637870752246239882230000, nat_lit 40244659670339892236142311735857910575174828629289653014813421380000, nat_lit 1019914172623220186996227186692160886845018112367208806826340853000⟩,
  ⟨nat_lit 42546376230712662297582342265699451631325640984455006811038791450000, nat_lit 18842265456926109775332064636617174892745891680241602595633880850000, nat_lit 37058848963374058761370502019605193937885688506230834878151408240000, nat_lit 502092235539994458112823439229662384991921001866810937163716186100⟩,
  ⟨nat_lit 6716240679114472291101744453365050796724911622250157433451331532000, nat_lit 31074050296957282827539225094896519725452865697984493110336117410000, nat_lit 923027530565272358390829172408414471865300061964895178841309730000, nat_lit 210781310972277113100940166311933140390641203602572714234145541900⟩,
  ⟨nat_lit 8014588285566466301184443811111686004803202276997684774899076251000, nat_lit 429062600165938997072769071079003432537932198073946571127253749900, nat_lit 86457852953603623228636096933078139642497297286267314475589873060000, nat_lit 73274432758215587995598418588540050667314672842388503723572750280⟩,
  ⟨nat_lit 46861983851886563118130975386705050511062609983955466884950331590000, nat_lit 44080560300633368460000570574374719258708910823891133948965242080000, nat_lit 583690386325253927539732464169965830374930574070113149153759176300, nat_lit 180909292522123794946864511241579367928698927490745682545198599100⟩,
  ⟨nat_lit 3449330199246952816620177935868938936456402993418998631707230861000, nat_lit 60927225678829117990955494132809314988188099397687236975095827610000, nat_lit 28404623943563110712346216195192319178736583169129694901259998100000, nat_lit 488466480667097167824360906859388341431099039342198870834002714400⟩,
  ⟨nat_lit 25486063645783500233060986135248194322210744418843128583795845930000, nat_lit 48144148169942393717359038164275111088255461256505287092237393700000, nat_lit 25610101442617011736238077796511318713934081343742236916736998270000, nat_lit 316042831661221925329927031887118141318899304981000738556694132600⟩,
  ⟨nat_lit 17524626308112942905482713610401356200427298714922177002907290360000, nat_lit 13067367195136506280721261850029228751671089905777516724418665540000, nat_lit 17182715269771082449240453718818130387946054908999321974102863240000, nat_lit 757732453343681462708342492710845597465666848286082820202153845200⟩,
  ⟨nat_lit 5947358804016285350916372171638167660180091441076644532291148743000, nat_lit 877563233237365294690937798973926186900528900482763932707099495200, nat_lit 1030327642693472601605430202162222087536185778069383445445185986000, nat_lit 40756978027556219257743128525672157861581335126619606868274983080⟩,
  ⟨nat_lit 58855895798291935624011309239954102873718953588824344134264854100000, nat_lit 17890805644596888802748246896293268077115526779535664301600508890000, nat_lit 21492388669496161708689105202846152877003420192025168413330810150000, nat_lit 496380057361263177649429977267228808642345184684633820095654204500⟩,
  ⟨nat_lit 20454460869371251837484147958953525706237732804482123107032804260000, nat_lit 4553012526637222326953214118857497655049461669547697558228855833000, nat_lit 48541788708028512805749790937719441369698921411910314383130948330000, nat_lit 753576108978395681950967418594278884607691787349687051273379082000⟩,
  ⟨nat_lit 975677696658781386029142201319883827435244859325858856319064082100, nat_lit 35229274666388456389398254928160579302334793808655632284182144100000, nat_lit 9454400947042667684540686273949199303244404297900413828500549856000, nat_lit 257632080272012358473483653322624246816809083417101326654199018300⟩,
  ⟨nat_lit 6508931397492767129669512717255920596944437533603033850946614788000, nat_lit 32818502743359727919007382466954093216921111131226889455389819880000, nat_lit 6309517349766129751125562419283987300206854334827965670396638669000, nat_lit 605715243125908389269588020676970507101134033691403982161903968300⟩,
  ⟨nat_lit 7340111639549574384686833150656378488768692292057171009194418282, nat_lit 66189829164586468276680321122479095343348554486217750961139066820000, nat_lit 8915592382140257082700314982478181067984646781832814061538616371000, nat_lit 123691888890961401720222474527297811018395140613949582765305423000⟩,
  ⟨nat_lit 4014669555255995281929036833902504812256044253449165014786210437000, nat_lit 42228655968974277789030858072018251139120942585989270276671675510000, nat_lit 47415860450149061789537950761757989317427944184443605203466520610000, nat_lit 511369956855595723822554755036622608849047677395163447922228454200⟩,
  ⟨nat_lit 48610591719934634237237297175388789620439461966493238608100561960, nat_lit 16444804391228691004298904020711081432803078758573151958002704820000, nat_lit 839142399909098292317859031379989864993990568984417258322771969500, nat_lit 27593644034530646369817601042126448471259225399388939123072712710⟩,
  ⟨nat_lit 39657966518186657411351168208800961112616455001749429382694302750000, nat_lit 8296638632305122230655813759347324294438707234222899425481655678000, nat_lit 51248500213443439260400335304663462307949830803898934372804390500000, nat_lit 234295188665869041405377237285461692398610042342354841173161829000⟩,
  ⟨nat_lit 5679682918887471680148721814050068508620513021716823754878332367000, nat_lit 62930275457960485618325418158305532492022606429590315955673349740000, nat_lit 26689217110249658248949828593369523428370370714002833545101280160, nat_lit 88130385951982501098841016636131967133604591520297904419027851460⟩,
  ⟨nat_lit 980059313527557072048369745874579487981805864862150059326522861000, nat_lit 163113303340785108139334891711999811067120297042427273493507637000, nat_lit 79167820793937744744658066464447888225849315426738499638449344440000, nat_lit 41018667042289506762943935822651320286289694156386521030983465440⟩,
  ⟨nat_lit 12021740114267647925540536474565283514333067613606732696529001990000, nat_lit 61567334562602909739249593561536675019136121348864924143448625610000, nat_lit 24786167469996206499833381769773638566064919739162591415425364400000, nat_lit 408398228985772169640829085890417111221418241886564875940178025000⟩,
  ⟨nat_lit 94709794448679867402988544175035386102139098596717461030655805970000, nat_lit 4494586866144220143820995867517523341169756198120693990613294879000, nat_lit 45540069636330793038491644476676154057521375461120760580458275430, nat_lit 16890370329909911731859976905205476008999028095927661055364636540⟩,
  ⟨nat_lit 81516430555785770506735691941081983049488230640458904928262674560000, nat_lit 643309481969476028325963657426692713080739665612644258967084298100, nat_lit 17831678558412141568241185254483851660617388348295558363820942880000, nat_lit 24854156891507809606617186619453833843734199509924965523884519000⟩,
  ⟨nat_lit 4040181538273675382133642160617333548113187816867700434300267754000, nat_lit 32666247271822188584154821562473606648221156201155646715227316430000, nat_lit 31080265030001755234078970007318076436953066046624657682785692470000, nat_lit 823448539839669454481500434786880162466041041357854195936486726500⟩,
  ⟨nat_lit 27103822165356895001701424774123666040434346415321389256434349330000, nat_lit 72660409148946693827599376080220223178336416937871988908615152970000, nat_lit 194288365313539011494149600348524235853626041937456202933054451800, nat_lit 16525185208625817064496583828430972016249290748075347880129615520⟩,
  ⟨nat_lit 36542681366692955251186098965797652700003450422426338639641257050000, nat_lit 30749897877435372829075748649630068706756563294687667760820897150000, nat_lit 26634785789915851157164775882865612276533103029593904054988467870000, nat_lit 873747137690425693577773533243961282666749062483334729860159542000⟩,
  ⟨nat_lit 1800318598010567324269309595629378385100472316095596640576629982000, nat_lit 1662459798884125680988850797149626518469750651403959650936596001000, nat_lit 27321991790965971602665527946494746436291068610123675110589869530000, nat_lit 159699426070761073582191696490638433113582192146723649853170356900⟩,
  ⟨nat_lit 29629755995604704604891423002297177709667060986079690346523167670000, nat_lit 65002515786446392456913420650100898872902703986265395756733469820000, nat_lit 3974169527415501764071836840494055356547814687696710879659778890000, nat_lit 214659275534846784020100556724213068611857470925416943896358317300⟩,
  ⟨nat_lit 9165070996491004723475425153142504032218022393177288115957525258000, nat_lit 41584170491217643488802902346993624833763896707891554756216899170000, nat_lit 22170886577435080124003527314949531452666275937562896333976223690000, nat_lit 961663351343505817654519724350375195394744446746752792714302418100⟩,
  ⟨nat_lit 44294332397068175812317374226682226327562055642100682994854905390000, nat_lit 15786103622071275153772437104541026365180050181930250279125861530000, nat_lit 19798498069269984980199202799099175965849559520580847268289453250000, nat_lit 1186571881442469738686160719066461287364874379346974195092388231000⟩,
  ⟨nat_lit 253741307315605846523597403941378777107742182737021565450558345900, nat_lit 34230819329578952717659901635576925457601196144533011251549586970000, nat_lit 22446593072681450245496185893896227352213407908711851222703596990000, nat_lit 198877967962750834623830328112635472490755970927833542367039237000⟩,
  ⟨nat_lit 39912184814651346984772859264057867745173385753191641106105221430000, nat_lit 49274362810503631660444380752847160106784078368015855845361738290000, nat_lit 10556666741903324060182088183999505061225944146466303867990805420000, nat_lit 165591148709219338434237615589031919657009035967885082859202468000⟩,
  ⟨nat_lit 13901326647432828481400061470432601342584706961107923158370760750000, nat_lit 3969346474529112686660656940463288249717543173036284721477374730000, nat_lit 75043237383305914286407590069456899475003356092441729272783347140000, nat_lit 370721701999921539538207167534408237743963098667009916936480535200⟩,
  ⟨nat_lit 23197035640607560752974838365177416622845182065616358556735391780000, nat_lit 7328622894178449810826416234143138571440285981441228858105136161000, nat_lit 67606711409416074337553861802473974655986486250683706873686869440000, nat_lit 311044827550063926114797929397739869943794437530722918256190081800⟩,
  ⟨nat_lit 6170964991700262662423165437340764606029682872679560186135492373000, nat_lit 7516525524158817391071882689756145044292173836323490864864139444000, nat_lit 32091389639798604505360776308941709024315977926366747419742838760000, nat_lit 635548561184191187910612223148777998767428302912585165904382107500⟩,
  ⟨nat_lit 1593522683706787115075808570959405373876699411580080056850561469000, nat_lit 7979645763097079037253361747451748606716434347090954160417736732000, nat_lit 61907359958077941570343584910475604035287162830329137524651778820000, nat_lit 287392993116473080616807939263469048121220738117892551279745494200⟩,
  ⟨nat_lit 2088766772553662276171055272016325704108039153342663899215519471000, nat_lit 114927783074425467826044319482141571858794044819055162194509601500, nat_lit 4859157349665273400923458631154089178031555453628425078359189557000, nat_lit 17474007718430189683919075186306861984037227296178718579757398700⟩,
  ⟨nat_lit 1437359594617999740721322268813767617584083173326392545810249024000, nat_lit 802486489590719796112268803928837121303601397656557176071647486300, nat_lit 90869027935176263332100629918071891112051764365843431442580833300000, nat_lit 42705925652826452848138256140513065541422466539343575031317672620⟩,
  ⟨nat_lit 27556041192012170304055089830130683680072695594595700832517052830000, nat_lit 48982553010214437510340448569281839287427930387496941552217389750000, nat_lit 9670883137566300287163649317588697850164414626127933761001372073000, nat_lit 949480992046666978548169470634759569902418431352986757304428270000⟩,
  ⟨nat_lit 50712370930940554768296338470231726057366926326070417812389170520000, nat_lit 31426317017852626432391657383318610784272767369999729254062453910000, nat_lit 13909702122094201459900991415993437411555302444519537067772863960000, nat_lit 544397384740067086001691860902566501333505875219971271513847801700⟩,
  ⟨nat_lit 3029246964053137981581560408874788995020944796687344332533555658000, nat_lit 6856345481996262373112084517027558796792337035505817046752722662000, nat_lit 1284585612045402346083306622447862501130115319975017539040436194000, nat_lit 105929564872447799733376509960156278271023723682272365747946034400⟩,
  ⟨nat_lit 458995701123496702728063523658775684342926244921611246273390210000, nat_lit 25258149207537852594556087618023673179797727267550705940264074450000, nat_lit 73778698926372724679541656177145254340595183773406953159050417890000, nat_lit 41407158852239800422256475647752989130859804363102652418816903150⟩,
  ⟨nat_lit 15461316395727027193601289245141867052895946263095819177558025550000, nat_lit 17864833954950950805746256990140879521776843924796543635660325900000, nat_lit 49018093375042583917715713146116182248014236695920670773797357280000, nat_lit 1131013861781615616406980912941644547820461560032434876387322104000⟩,
  ⟨nat_lit 8649776318548103851462357516638430849407887246179914971737269068000, nat_lit 76504784019152059766248467497797813891813948052435361371229031590000, nat_lit 5947384901020027501157623878658006927976707904208894156898780794000, nat_lit 359068739107964059719112860076298651212057114742498650740901500500⟩,
  ⟨nat_lit 15260809645308968130278777855295352526776529723134133398799416600000, nat_lit 15490380150966634655663568757918794731796573600342684281375921300000, nat_lit 62663051125595313361967611851099952065353516323611745136673171180000, nat_lit 699350605941893990030377823639653551891784495431090682533158981900⟩,
  ⟨nat_lit 15039037405891069696288939254590246622461541976835448349165569740000, nat_lit 81159103959579146543692232127919512346761999223429464929489785030000, nat_lit 2401968818815947227068027038765161748501896959920145486998814247000, nat_lit 144660624230961611753116759403720945322952094587636966895612070800⟩,
  ⟨nat_lit 45662688587487467431679558234924441638128944947451923264094771780000, nat_lit 6166297435901600190535399644966551720046310501916276956241215897000, nat_lit 95889827973551053799758192950561092174262144864573773186916961450, nat_lit 122209983788457374710929428182052590061851508706907157324835618200⟩,
  ⟨nat_lit 1976819292622626261123879618824738023067281503078060445647625186000, nat_lit 11502138807692164383077489445850715127017823038995261965856146550000, nat_lit 85305121003387386457122165662372231768269197384908133367346336630000, nat_lit 97195954447293608547226157089258631547526807385105044321171366440⟩,
  ⟨nat_lit 7570683770158320822024288690214175104682121896182264377809598702000, nat_lit 1505606661695833628666866687707882930777191914425710446482658074000, nat_lit 75696372827848538544338270577632846864057574769652013709293226280000, nat_lit 263465557059344654258178794694086165089319426127620828561329124500⟩,
  ⟨nat_lit 48556624314921001325993874055760564953455849046390857488349785640000, nat_lit 2174775125539682503718978456092973518201233855777277827662330565000, nat_lit 17482731546429787905501066540019953367357586002246654165805970570000, nat_lit 563282800298290217672486394361844582261517985487522492966539596900⟩,
  ⟨nat_lit 17871345520206053579569562287090567250822609286268840560953589910000, nat_lit 33812270814673647351118163781696851973583386080667212819018257950000, nat_lit 1280554600995334154570842404170423654197040553894882532542596022000, nat_lit 374260795879903187734509248131067836375267833201790153153630475200⟩,
  ⟨nat_lit 31245825447049025907548713060586660509272130352029836331748098960000, nat_lit 11334389453169994174387811288469466888767519469933212770810866480000, nat_lit 41436318230154398469040597824600309107775755640996450393600088330000, nat_lit 1177257344012116076087667696787199708328809821229020121447939576000⟩,
  ⟨nat_lit 47230283332046545862945810636385731571670328288016380936258074710000, nat_lit 50276188017494426479522567153473982431588619183223324594607104500000, nat_lit 1557288611027003311695854669756263665718703121690135518079269560000, nat_lit 121205576895152600109585090334522603355738996107881532811723617000⟩,
  ⟨nat_lit 68782726678743774777593008715904064251767838351121160302740154480000, nat_lit 28885051822359479005647758823186392016678486563065305244707182260000, nat_lit 1733345106900074294662086664609858578138598210298227229552809462000, nat_lit 77492473513278813132627104752995210636407523086097852750737068830⟩,
  ⟨nat_lit 13681660617600751703333621963392018787463296120390812170568958050000, nat_lit 33785707001213217733026438976300815864116464629150196814306784220000, nat_lit 47370057827480088335331954395857711660108559826930303901482583850000, nat_lit 582805120369510284545223283945840698299618923880267515754809775900⟩,
  ⟨nat_lit 5101440958591232009274477119616798402362508021399817688371312392000, nat_lit 7033164810546628335930302557751380004093486557573267043066759323000, nat_lit 17989438479805933156406069404183990102067265008672211560792499440000, nat_lit 334747512997572807286991774323403027933248584433661114943751679700⟩,
  ⟨nat_lit 52860027964000667822847482202862691759674574590757764193554533530000, nat_lit 9211921176817323383757519946999455894783330140630875250647958491000, nat_lit 7496183669232178448476268577817810713986088297238156266506605642000, nat_lit 680242564234373158716499755046777182839166310517105015879538274200⟩,
  ⟨nat_lit 40418875909945161339143975183222031868775277263614294742962859250000, nat_lit 8777697406349257129336391912822027481119558848256328038693969279000, nat_lit 17101591670492388974279482915663787431226081653144450430041556220000, nat_lit 865215929084869277302495745557040113448223693503259208180726467200⟩,
  ⟨nat_lit 49860165785941746306309262426553914570031836275262975249998092610000, nat_lit 2720401477489495745221640856956229734031694361421618880627780977000, nat_lit 6626439982863433304391449098754946723144127751537867872244743244000, nat_lit 396893291421192336867280756177775667296623171200501313250441723800⟩,
  ⟨nat_lit 87944016896745769731205693192482355629708483995103950820772045360000, nat_lit 5433820724261860368191311077499714723988672569367171490845596695000, nat_lit 5554361881809035287804058342218370363436075161737356240786173957000, nat_lit 115933787319047789476872746315815053164637503127054978127532868000⟩,
  ⟨nat_lit 20845077244011675119761770241287906092988929551210511359110825120000, nat_lit 44124432058401700119008399994530091391669215141497689656788635750000, nat_lit 4858256259116615859159935780345126723188035462085333920132828129000, nat_lit 765735210012856734407077870986416329893487217519360985364979362100⟩,
  ⟨nat_lit 7466954598990767517815360551534751517528850726949425770021063753000, nat_lit 70446305832164965259973653193592773980477167425438146580726665650000, nat_lit 15154804419141557525972038173445058247061216270913421371122097920000, nat_lit 488315400571023867446627601880168765891403737023404548430800902600⟩,
  ⟨nat_lit 52216142971686496436103955446487559837380390839474568509544628110000, nat_lit 911156054908060291702978146755710266086880465742346449814190478700, nat_lit 1812425547596696736169620788442168566710818478405339535995092432000, nat_lit 113427476811332206829874957143202194068145932843319433531617833700⟩,
  ⟨nat_lit 81490295045394490423416631446582799286322602568183085299119588490000, nat_lit 15238343571300930900379710206610815451603559986309521283525096480000, nat_lit 1931291809688984688061668618600889014803230219150649931720808119000, nat_lit 120052251619246657187883565425873666727547710197767700240333128300⟩,
  ⟨nat_lit 912308590000728765440659457053174257883551237910448140683345156400, nat_lit 31058658632967885726102129530871439804745608466730174333558244360000, nat_lit 2006725185042722583526206305033146701117301708893095524397645285000, nat_lit 125581945068412342835106934937033688039250213483464938535848294600⟩,
  ⟨nat_lit 20298170619205176513678177489921971713884806908404553058713350870000, nat_lit 1034438944645686384851452886480994079394400037135174663707731393000, nat_lit 63084713160476652598086485863324465126972079425323406858732843300000, nat_lit 313050824806205464913532772268001820864886758471190748031378814000⟩,
  ⟨nat_lit 15009632820910700989144722091605338524182514395243459380277273120000, nat_lit 1870676217346545727296518004581663761567765106180920745978609223000, nat_lit 82325805588894292377541891639961123904719219697493259663836033200000, nat_lit 88815348163033579372252082374199801723992924530259590950570057920⟩,
  ⟨nat_lit 64325699246679369211185185258326809840976960675402528739116080050000, nat_lit 1441019425301822282530560680870617444662125123166262894964749858000, nat_lit 32791111216835094182405031957272386166897905835090224785912444280000, nat_lit 131730561288436577766053585300806549679614502444031074605206020400⟩,
  ⟨nat_lit 35160363010336084088341598899764824363165799922853488083349098910000, nat_lit 2344119344530040035140506502847705006199748087018788949023455719000, nat_lit 46104944693220631483112896930203477618846666155012162748088399680000, nat_lit 588894613429449883508455501682391476749887272238004825303409525700⟩,
  ⟨nat_lit 6291317829691707738046757052574566320271403448512997229124253309000, nat_lit 9794103738128989953384039629692858874353496243373912030682202403000, nat_lit 75841059334942808184736547949242063176030681701812907028470035760000, nat_lit 419908592968146937550715686095260281131823254737760207080251672600⟩,
  ⟨nat_lit 71864959875716027121850112956912505174030743753912029981049502480000, nat_lit 13276842136066199774708811776870570375402158318084669325762883980000, nat_lit 2516443503447245408721636434334469837230291560657387056490444127000, nat_lit 258407859530907990090484304074857036289355932129220456013410016100⟩,
  ⟨nat_lit 4408449201193112591318833544588831506441097507636082862704777642000, nat_lit 17949120041797118272683306978506373273713008851498597073955891070000, nat_lit 1780784875007052817044838470318778645760010846039702236644555190000, nat_lit 232959537865202337152005155380401115126304006104798241929327421600⟩,
  ⟨nat_lit 3244822163822764148829434555636939646951247279301209319903257247000, nat_lit 45669771752586631650098749126157118261861607551984406818809885000, nat_lit 96382565710206786869652453764142348696899793862973536413540205130000, nat_lit 10731085684160407872841446767632585493292698763490976161961726860⟩,
  ⟨nat_lit 35219750299010355644054938312752844112268770271964560410107245240000, nat_lit 45813265846696525271279678611554678354421163220263897651913022780000, nat_lit 1726204628506148823130025849248928958640212434615568583582105654000, nat_lit 447196507929613768834124872123804288926513574105839933412739607100⟩,
  ⟨nat_lit 1525532331654366382207896713590510226961660224785891205523838228000, nat_lit 32414404040390250750476143175951414688464982078216119347038635280000, nat_lit 50144692962910458570439993333549491130099600529682028222129542800000, nat_lit 420709624703420652202743194789729233043785609195172905297930856700⟩,
  ⟨nat_lit 1722828219525053212980226103497093188614050430303869383346811977000, nat_lit 78599062558308589287712424304063874852590555257089622939676708870000, nat_lit 1639706281127570203259976392881396840147102897913939301777686411000, nat_lit 141025301988135183465076643755494969027269707035490884801143013900⟩,
  ⟨nat_lit 57636707988478418033776314808040681717439835002958895494041801880000, nat_lit 27572362570625490892786696849736081600046291854092360718005098000000, nat_lit 1436078086934803972591148273394105223923017842423400070447161846000, nat_lit 332973545092331171662931725931398640082658767309163893004375136300⟩,
  ⟨nat_lit 1079140798194281631136319857114190279225910403618108910536038159000, nat_lit 85211583268114836868829858509286657189213125789382630204906161790000, nat_lit 5204849640105619351626763579296067798685302206068499532196835661000, nat_lit 118985875972224098863468011449655465818951312469438340614421037300⟩,
  ⟨nat_lit 1529489892125755062365031784200970093879790764615792832527682768000, nat_lit 7852506531793469730210985558336777976801437262041824219502939340000, nat_lit 46220564948425664892043867941108388344950183970792655928616747230000, nat_lit 343222765745416163189593949151972241107057445778334027371593458100⟩,
  ⟨nat_lit 33953351726429937948758830179598080700617580877975577711802052170000, nat_lit 22385452845687179965398861181663955485988586797182784602377053830000, nat_lit 61587727726602935675307302033802819545953132595674291554023403750, nat_lit 104965274531959981469770267513893197320955540947419707583517732500⟩,
  ⟨nat_lit 856053766325643679570815750704896536255363828631050318217726542100, nat_lit 64410057766365711678730449028573648881088029540882554875531048770000, nat_lit 1553671872889671360235141892830949194703039674478613944122166923000, nat_lit 95000462202035211292616834998535497170920704354120388589243129660⟩,
  ⟨nat_lit 73920968447704091424235932218255961787167533928742906414514660060000, nat_lit 14722083386824793501786455526115763662518467821662778855516696910000, nat_lit 9658728162507202178011309099380688935471523098988311852952306857000, nat_lit 288424989025026021527654838755748946146122051100139256074889566900⟩,
  ⟨nat_lit 3632648615953443396186525128707974614015485547695610077266031742000, nat_lit 56019261566796032333830929993933171509792685551211870563277176080000, nat_lit 39060728908546638756391160853106273560134579485712169225094994830000, nat_lit 245710482932126538356782035027537961224818446677058186374372710900⟩,
  ⟨nat_lit 7373608275066785502781510485748014611997524951784154152244882477000, nat_lit 1182558177910503639548058044763973159886355575217792402286653968000, nat_lit 15510740133944251689112245570322495476912348471297415449392259230000, nat_lit 206652951478599959895222144092942481172885700057840604191174676200⟩,
  ⟨nat_lit 8700140731659712906447511693880679444551377439670078171522795083000, nat_lit 5912563421862015435166405016122387503180339283755140096053101526000, nat_lit 47747049427074465734875753214787906892041254215778819140240549560000, nat_lit 624012271350048868592765345843479213420004095359674692133924805900⟩,
  ⟨nat_lit 56390033016562093983243417470033698807445350162622741428293524670000, nat_lit 19460214640603515546880990894630655518071107773819093348695428700000, nat_lit 15287888615364544235864798780087911091253616464809019547381443600000, nat_lit 880869515033529865883768527246385016884130617296849164761171154700⟩,
  ⟨nat_lit 3877787308369615927769517705188919300189561019090202175664705288000, nat_lit 73879483295829838901838174489504445216672318483182078802844530780000, nat_lit 21162186932185475624893384362710425608492009573366160644799706230000, nat_lit 171613856910114769943511953261996956594114549204561196197807172600⟩,
  ⟨nat_lit 2814616401470630143735722981507236489764388782817330857138637802000, nat_lit 73516614487107314513826823115430540898571597042773223899698830860000, nat_lit 8858559326738742907320473850234300138259092109114014919257320440000, nat_lit 297126803166065497793936916204670007548654426241866984518060683900⟩,
  ⟨nat_lit 1781443851914660964301032625366238929652264588703921363756646449000, nat_lit 50217793027210648060863622151772254341290584499496798766749586370000, nat_lit 6533663111467802973663863506326072246771509372861117673223794895000, nat_lit 312731325188052340117381070395491875106263425853876410939699690000⟩,
  ⟨nat_lit 81876051268083591008073531639252542715085237210734108403404325780000, nat_lit 1155147330314626240392879894577646043425280231412381913444825043000, nat_lit 1905418311845789781083704785793327362405415553278894679219296145000, nat_lit 93897721583208347193696034756429037907720898544953634067884275790⟩,
  ⟨nat_lit 3941154123625683351572440648029958404646422193421817787132590942000, nat_lit 44558771491872031626043293812267944827354563106871196267225067520000, nat_lit 35119659713662231890658125983475092795249244425684264891219004840000, nat_lit 650701144860333089898387224807555781007331932494236333578697386800⟩,
  ⟨nat_lit 32960139259087251676375713077308180580386554171329028533428025680000, nat_lit 48195443034854509499542847836664569220037374936763139409382468550000, nat_lit 14714190812050222474678290609734799763445022257852941091197736910000, nat_lit 718551506305436534513940912863955319096977258148284309486572816900⟩,
  ⟨nat_lit 259016739560210243347746540481936096184507152909688222215659757500, nat_lit 3265271628041966525682382802300849527136520852674035950792384580000, nat_lit 94709519536993471144374643574961695758899234693823618355642335110000, nat_lit 26715013042652677216887707915188876306180516910873247799686499240⟩,
  ⟨nat_lit 35661646516974077666700233575316254251212923352650934916887707970000, nat_lit 1306433488609433571451083842075183484685534168870473382146894427000, nat_lit 1512936292407755307917850977148036630094645463623214781563156238000, nat_lit 123187650312751995549470939080317636136461940182977718529553932500⟩,
  ⟨nat_lit 22386200577537483064412036634393262518320045056071091030358052850000, nat_lit 40056912892860330175859588720334550003384706610698631282222766940000, nat_lit 23084866015099530282634449038539457394381400615080464510729553420000, nat_lit 1209227740504161008637078915224952509933363873742580423505610828000⟩,
  ⟨nat_lit 681834313156558139481622497823936090995239795453722847567239619500, nat_lit 29729266191128773880834914593344458591090486485631215732976465020000, nat_lit 63305251817281008905391371826943480134075103461682301567626407920000, nat_lit 180543871020973211906639016760096923684704229477908272908573230500⟩,
  ⟨nat_lit 19750132312406587431208349446648553228379160763128774955945762100000, nat_lit 1128801773625574918398499902307590878312997888725036829756305057000, nat_lit 1566215523495959669306171408344665261909602864305837849885767028000, nat_lit 106591616649279619606458969055315231217780863115838490077619708500⟩,
  ⟨nat_lit 18303941643345559875211263300080166336970753812123248206943926060000, nat_lit 41681632630840952121684653210482737113028053818907972455294908830000, nat_lit 14920028197588980479562142618176301632402256022484944984161826050000, nat_lit 996707375975088286709256130675837375464574597003919445114463367000⟩,
  ⟨nat_lit 1154838842793436852837717873603608096149486941154230561305574124000, nat_lit 50450298075202888369421289553024194669859041120088175658421302770000, nat_lit 26824119796849571609572395519569103980215782893738042274238816210000, nat_lit 329868965406893756829301872393426357950300519938377629098726928200⟩,
  ⟨nat_lit 80527323402151827933259674766636456521123531689336642269071991770000, nat_lit 7586097478919062704617135354003669929721926774491582741515698887000, nat_lit 4250761319305863316977046250660236543735627189524617866565529040000, nat_lit 224346045255601346177272584582807272488694505175866809206411349700⟩,
  ⟨nat_lit 16685750920861733558769698413951214611592584766410333775192950690000, nat_lit 1414564726758250266246775527318919843538573500867121951700595736000, nat_lit 38799027747991471973443051298747241988135803407742389353064036380000, nat_lit 433187331524376856798804707795415553958551932473765290131821164500⟩,
  ⟨nat_lit 27103121801436583856198874652337661306794822043536323481383729720000, nat_lit 30802076685194439970665117214121946351143088658371118401789865630000, nat_lit 40543981421045621301679283641094274211189937762077771727505658900000, nat_lit 546890643989187626298993530341293868598300384348543653364448388400⟩,
  ⟨nat_lit 44792345073079596124128128536644643589856510881262809306703522420000, nat_lit 29296868200941172906062036188427047269775946876131355852186083930000, nat_lit 1184275236515181694927410417205413011348056577986598600512838349000, nat_lit 394057520870115187859118856482253811831593043006589714411192854900⟩,
  ⟨nat_lit 21445592912845347093421215690017668899818484232899102867198803580000, nat_lit 64901490780228802677480169302748654510682148845707092079692551950000, nat_lit 12404104120044880294628210978342356551633023885575438872177321420000, nat_lit 311717413924827577931787757472329204958364616714955445145127091800⟩,
  ⟨nat_lit 74183980556420940010500162319291210458395305220035034913227004360000, nat_lit 6425548939638640550009991464624926845394011861554942627640258608000, nat_lit 18187519237020339757884168635506153083768876817875243645414806380000, nat_lit 225126730512632055842763820124184359351913200440115680064404155400⟩,
  ⟨nat_lit 43359589465675566913956433844334393563080617128350376814294461470000, nat_lit 17575977960576210524008788911031462468713488739627753708337042660000, nat_lit 30359929093939880926706339246548367937902748949521718221073195100000, nat_lit 1057482096831172706665999380591981924054588271478748810113859573000⟩,
  ⟨nat_lit 64075434682032179814638773568126090483523526215755292121666783840000, nat_lit 867062468211258302827138426705699601263296214818203969931602717100, nat_lit 8673915290364244714529405317141341239104199520765181614178697330000, nat_lit 240477190795305945281742979696294993439039026369473560800436981700⟩,
  ⟨nat_lit 1934209304334884401768161402350483026184863067154856328684951153000, nat_lit 48936414090249142972540667829230832624526075368892535331029661060000, nat_lit 16198451867801360074605672908075891661610188684932979280110689270000, nat_lit 503434176372673611217465592450344651758275192462286902278601230200⟩,
  ⟨nat_lit 62307087088463802321709256973938602971354665728727830234882703210000, nat_lit 5110114076352208261733250376316173950988354941481949157274801111000, nat_lit 1431575459119076016828683521614010623085661327122925714852367026000, nat_lit 257173936577426829453751894853803177467708552217153278557576789500⟩,
  ⟨nat_lit 5032126673103731669596538075690434625942006395353103952158091792000, nat_lit 94044800305841276581452323551111090960702072201491833382766359620000, nat_lit 867727356153403726247604192526763731249018552532507943767766386900, nat_lit 19687822421383843824476244685163346665277706035863580788930192040⟩,
  ⟨nat_lit 38456712285731053937377390217231009726540565068641874208172120620000, nat_lit 8412404193717962485580271083251560445965734603496608938802119655000, nat_lit 4365323085077761885755502559232273156421084208504470654035169432000, nat_lit 580162578943918684885509218935568451816755473112660469814809437000⟩,
  ⟨nat_lit 3790827219361694183334088871807650672740003913540941742680822708000, nat_lit 20509813303991925311292343475690811608101127593951598779605670310000, nat_lit 71447217790696165204702359526371619822699569274348648926306835730000, nat_lit 315453140747679620701063256857275192583740838295218581462898471600⟩,
  ⟨nat_lit 6747783217650599946820665911674302143487652228167618735147632354000, nat_lit 8686150842307448182072362442092387355652135993757468482876607751000, nat_lit 7402273341505763547224702042570252738855741126344674621075726649000, nat_lit 426518359304356642844431639584338139304178268092880128045018602100⟩,
  ⟨nat_lit 7293532871326000091813119238550057094661952420920199970180531504000, nat_lit 25557338765910065798004261476597385755080172350886790191241755940000, nat_lit 57088032397667154533051901852398914203146393726983794781278478360000, nat_lit 748363827467525394332958190786505728593002206146891862997338877000⟩,
  ⟨nat_lit 813955717850800769794035516183307448645598937933592933603064300700, nat_lit 66543245955852857553922139932777521461177660163024520983314507490000, nat_lit 19748019659744598512859384462955900319807872588255359995282024020000, nat_lit 217724023630701788547314117939210998171786380797774355273199125800⟩,
  ⟨nat_lit 38855070283689970895175936052722472743536360265003441569775729470000, nat_lit 69975492879680565747193444718531338993828838871207928822031887770, nat_lit 11905303898220363598250533245519768960463336024458879449756577390000, nat_lit 159252303255685593232149592666942037838328509983737580431918012900⟩,
  ⟨nat_lit 61956768883459704534934642187804763229992687178655544655813608910000, nat_lit 14739529052727570122087356599176676512558845080506992598194360700000, nat_lit 1270094618413276595586931790672310873063161630058213410676400947000, nat_lit 309424978944053779064467825376304320304680521220118720381493105400⟩,
  ⟨nat_lit 28647611970649746573148160495984485055082849593297259769653327140000, nat_lit 16034880170240085782605318346975593472203468258973178986747418400000, nat_lit 1467383634790590631265356192973476700686100842729203742585879181000, nat_lit 336607040238187868061763140016229686896935627880341093560248091200⟩,
  ⟨nat_lit 72564275497023403538257519214262596465237734332782642910970714940000, nat_lit 8170439505001495041370087466605563102943175743050699586121462083000, nat_lit 11919919103710686916140019389954408357456883351747324766075174060000, nat_lit 506444267009032285937963063061447839249238045634743196904447660300⟩,
  ⟨nat_lit 32394347074612104230701160733417532621913610347596193826596688710000, nat_lit 2355505432260260291925095752325938278303081771866610402432775430000, nat_lit 5820340311732460437392790424436930615567480086966331818151323132000, nat_lit 252298016821115461352878107288325354410962727101642824836682132800⟩,
  ⟨nat_lit 21943416773394381982778698973449746059783009073295974578297439770000, nat_lit 603662134957708688493603697471688369756207384357746580855467898100, nat_lit 72399399939802783388480011985008594458838874495963000426300970640000, nat_lit 122459967194874210157138863313990295307905391777809618094629534400⟩,
  ⟨nat_lit 5275633882399241919013660093011826260659603682560312549015291148000, nat_lit 62564537385312746175423736218907523802303103914105912572346783220000, nat_lit 4926263722371804741402617707796628148135431525443097227991196820000, nat_lit 505599965540618427972353271887663578130440119012942374191964690300⟩,
  ⟨nat_lit 60035554698444858496919723748079553348324865938477705026522935940000, nat_lit 35087481932211531848797476657545533272301022534424028892937391110000, nat_lit 1401892707623869164096362841519180583471846202251660165007084146000, nat_lit 175214676814537784314448272302566162468844514054303941072771331200⟩,
  ⟨nat_lit 48324489670684542076742256053032769780930725290436343845436645360000, nat_lit 34574843956920940041248153687489185725153719482033104082010967620000, nat_lit 6112006885153006544606060353447144484267034233304490323032075766000, nat_lit 754449302265531803169496440246621387552215008886289718859728158900⟩,
  ⟨nat_lit 59725391522772655405670545195602834070484130333126883239703133960000, nat_lit 7203880580291961285406825925999571111702727356896863033547218377000, nat_lit 14335701768832519023757791257925437157688893478715216178774176070000, nat_lit 730447528318937922752999108200464960566579201271456557237390191200⟩,
  ⟨nat_lit 38610915211624079322444958138292104822606304428706061907554775060000, nat_lit 28605673301074846124901999780826584431306863890691026506196792020000, nat_lit 15986863153773808540862990472803442602779522611708077834110234360000, nat_lit 837149108210986759614808427004396462918145658532722592115087669000⟩,
  ⟨nat_lit 824411711010064794176242645926892609012327529711295588192287641300, nat_lit 8674085758745969556632191485755126518720130126966778825304369781000, nat_lit 29417222602383863951943746144901495976803812307178214132331888950000, nat_lit 216635760990329557795151749272440046795613188251149908140892484400⟩,
  ⟨nat_lit 42736206257236828452957685084188087797005067725763595229029344670000, nat_lit 33242036010182163193348681738589062028719180171830150047453688510000, nat_lit 23169359572414766984866826558672762816914150306508037931498625420000, nat_lit 356459630056649870953895112955649900638256796477921321299035979600⟩,
  ⟨nat_lit 31495028914132820589155744282531145366053683781750969584423582770000, nat_lit 1501664045159101043111745701669047406203139052338994076794353697000, nat_lit 66079302544233152631758458430619542774123416441034212085359050900000, nat_lit 102125236415024697598768872153620730085711692306946699746804313300⟩,
  ⟨nat_lit 16862358815860605582983380269221536763262927773995043111101524190000, nat_lit 76834910468073764690506003589124466802061965203725229383373334900000, nat_lit 12816252954471695612382197077766494335945403366927632618764279610, nat_lit 82300479707598610503971611839769263821712248618304555634984674660⟩,
  ⟨nat_lit 11070516701333889420706470042610006744710973465445416827655888540000, nat_lit 49112036775349372614252557989937221956900134506410282313694976640000, nat_lit 34086069876065843015034481899174309238713799522236425684399431140000, nat_lit 616788658032320917786365662849766824010231971954568744264108283600⟩,
  ⟨nat_lit 78699304545422427832638898599624370902864899487576273129232704300000, nat_lit 1450876348757584799387778876681709365098093752113130521857927563000, nat_lit 8794264193112243593735534560930214240741786866946772587468244286000, nat_lit 226380803414424478919234889557522679157361580780754509502932739400⟩,
  ⟨nat_lit 374993792024732139177727921025813130931978315161229474505417173400, nat_lit 12331278598099539057512624786390385771927852112454772357672879390000, nat_lit 80553185252223861219678687837318142976531779053042223091981249550000, nat_lit 106952559596404471891103431517373203689479771199014704614477316300⟩,
  ⟨nat_lit 10319843578306121055914252427118513324179268311416104481750824050000, nat_lit 18836414156808036763938854134577519558418563988871057130702683660000, nat_lit 8451283902390550794501719883653634798193332351035994719769869432000, nat_lit 725794534352734747672079490512328457420079857709113726387633272800⟩,
  ⟨nat_lit 21206177010092301152368675318142436911100232750554981733412444180000, nat_lit 1246539493779747415623422876494388905379173841582217295742207474000, nat_lit 9269316919916544486696975429824306674037726265755511223538896424000, nat_lit 253370318967367691706639188640905998564875137907342609843441210000⟩,
  ⟨nat_lit 18845930994159516647102240909055644625297225912429820316553710030000, nat_lit 7733819238855424882166108865899187457045103090643695474625325075000, nat_lit 6559635408776675718636891522119746317514295816430910232944935365000, nat_lit 591279199715418759406215151621967944881811175222880063371946107800⟩,
  ⟨nat_lit 10241479136165824375764610815928246824393226251589631925956296700000, nat_lit 1680751344586621099202630696610804649776557575396460137997675949000, nat_lit 6308427819340380405266587076737496342865180042950670006237877846000, nat_lit 190125106369067343572243184538928672276466578616938930826978266800⟩,
  ⟨nat_lit 10394879925593770736698035966729392186046325117104201385042437220000, nat_lit 53033678786869700903822622336965724430614383073393482995475160880000, nat_lit 22780489151910149690326653758977936336055957254626093910254068380000, nat_lit 850210774882087368666337718064180235019890342194112547331528939200⟩,
  ⟨nat_lit 32469503795377760884242862931856921417558632026395611346820450750000, nat_lit 62890043647505183059141365743526912851040365513970786698687645990000, nat_lit 15816694984427437469841839037856488073979074245341665288948362590, nat_lit 95972988325384654395242271173927681554909924709326503748093113790⟩,
  ⟨nat_lit 47405531876350249328061931604105626337323453789779074635239912490000, nat_lit 15262768417771737692649134560539235616899481124203133582642539340000, nat_lit 1828145802550024761671669340019098373245699913391572722349283247000, nat_lit 471373773151557021635155413160406169457993966873119122240280994500⟩,
  ⟨nat_lit 5414666327224048383299773094807393253742876223198386473157164466000, nat_lit 4309351116231158234216746501000929257317054961412070288757869095000, nat_lit 88403361301482357107465128906717650555848881844132409793548362210000, nat_lit 141576928010237157188724865108908038827204808354726715612094453300⟩,
  ⟨nat_lit 8694757898112567194757459908539267150185410841009033851812139041000, nat_lit 1415657806206638588085965425901661824105967446224133380181883524000, nat_lit 30012505542167787560988120734714689752446900447184102785889393440000, nat_lit 317293765027607378592421491350608238052273431744638795725211930600⟩,
  ⟨nat_lit 14229381007478586403601185409027632489676490726606276099460544820000, nat_lit 26224515663615699174344217400531225715567089266421764140161325470000, nat_lit 18222756914569028036276981500468927349894584561935824696158289800000, nat_lit 1105846388137659890888382276993110407223525991699140849991960124000⟩,
  ⟨nat_lit 9286597395858354643265745074234265932734311387020962405788439765000, nat_lit 73810260522442593201771427070313220734163945651060968011475028120000, nat_lit 1447695600164113330442723010577727894647901001193355051649944423000, nat_lit 281668525414488338158233178033972072957844066177476655413559587800⟩,
  ⟨nat_lit 25804449760433751048561653128309113540730043962722700836805702610000, nat_lit 6913476243098621600448037526488613588282353167290583233574770719000, nat_lit 1102377266481772982381018653239030903171538406932227602551429064000, nat_lit 231009018974429922948942502775834697371023543874751685340499431200⟩,
  ⟨nat_lit 1939122052506002995771619474075976880079027880588980130081875309000, nat_lit 90065069902665306374631456002747048458323691257994452881435421480000, nat_lit 250131853088562284178737034564372704462670821346956696802474027700, nat_lit 34849446710829241136609107522494981773928549276361647006986216550⟩,
  ⟨nat_lit 1222689868783950525773718831399689031069850844029050269600251460000, nat_lit 8456422891609014046296715284106768556563851868055279931690489709000, nat_lit 15416896711903717636988366579468435840219929025554935870357863360000, nat_lit 193719212195300863342468042324018287563526444749463605184220160200⟩,
  ⟨nat_lit 46742934805642643364779695245063536129912048676574813307089441720000, nat_lit 726024314056850555625167052656955044900100725881209189786376449000, nat_lit 30264958051195077018020417952794754086024611017219827796795719690000, nat_lit 292786585268449840360305828005224258250024929758509040875205623300⟩,
  ⟨nat_lit 27445877665041874718388446178913377930242989756852642477799032730000, nat_lit 27806237264065904993295976370706483471864866543597146160675208020000, nat_lit 15403899131228473511176601213987132359844397533199802285375453840000, nat_lit 1329332074401798237284052773385698862742685895733368102951272136000⟩,
  ⟨nat_lit 59465811456418451144960030153534716236727346062475358689262802230000, nat_lit 8182981400739705800191854994842067165852881467749900982724824969000, nat_lit 24564942566995169373421687751416457328442063921357047037658441110000, nat_lit 705284806961274174100801851638720335538359229581115737269638491700⟩,
  ⟨nat_lit 1939951910625216241145266210457473372027166832342547957519362720000, nat_lit 20020642440627486419909523407339771137148458217975520253315176380000, nat_lit 8311559873054691577325994106212067610082494382567191124253241359000, nat_lit 353018341946707599165304345996837749643707997316130234243495929400⟩,
  ⟨nat_lit 2240072948098742276578552338276274868074561616353961186293499773000, nat_lit 4194495092679412121848939708212019442706595381487534354863446140000, nat_lit 84809373634721084692908370580844604858004868625808385318313537600000, nat_lit 143620013928542624611262786126637557002496117706045825457545145400⟩,
  ⟨nat_lit 8354780690668454115638122601489321200731259331107232770631799571, nat_lit 46108444140986200122025615065962756932807171560863622123200253190000, nat_lit 52349701997918793800382466342184468323326192486620911861962356200000, nat_lit 58764673394850005307105832524647806193763572688467834808168448950⟩,
  ⟨nat_lit 2174413386891738406101630395271640481052722781280855355063395831000, nat_lit 2720268436117133633355774288888106167322577884273624796789819081000, nat_lit 6496645032583040209356539192801822134060058653394865070859188260000, nat_lit 109226573989747101815741809343200679146131235546872974761107315900⟩,
  ⟨nat_lit 45096230916189930716943199065901516481054537049261116129567206860, nat_lit 1943507229426982789099811675511512737904825507918369703981890613000, nat_lit 1031869744687278423923679776084357816618012945847430657219566260000, nat_lit 12314887629244791155454657542719679670255445625232750180545851040⟩,
  ⟨nat_lit 17881049564113485593076104256509302872563862982626781426128889210000, nat_lit 29797080099158995840444947838353087337769335703164102641309382160000, nat_lit 7896222326150818846734516760564534055992503290542785447942049262000, nat_lit 963097943527237801209723151473411640442470810127161324964904049700⟩,
  ⟨nat_lit 26918409458819460700269829258306875564027418168926108254720370310000, nat_lit 41664302429232075408098636448533277060123687379567907584287702070000, nat_lit 45948817230794037391361910179163420958793010072401103204002940640, nat_lit 187433595035089463943495460320535043012401025045173900974938735400⟩,
  ⟨nat_lit 4951524268863122489500482211399137894116089566200920871483101247000, nat_lit 59614458870018056378215511813707653136235263094785093903332120630000, nat_lit 15391381685661252307316146358549575105406451304427284078956738430000, nat_lit 603125494002735726946384453056440306714901854697285063156009023300⟩,
  ⟨nat_lit 11773295940736386362906919687007900065661131593675482052785090560000, nat_lit 10698159355892190998361205164036749078501059179492779742214649610000, nat_lit 76121624734154653154817991484210902879239402145463542200862852360000, nat_lit 235165488316988454554737856781087813447581072481187081518732744500⟩,
  ⟨nat_lit 78888064085959278637047185914258923255044498774495768764928430710000, nat_lit 5690461077899402056663947747600822005944178006199156386384253702000, nat_lit 15842401414457091902231485973285174873863724635437013017087445000, nat_lit 75867107898889892232424055714179226953055977710346905430479409650⟩,
  ⟨nat_lit 47803284456491145311042347301583043030049333916722851364628472580000, nat_lit 1641196797891865506056142473107783985093415560118609013990874228000, nat_lit 48760760960349719613438240460411284998703697969705603226876922440000, nat_lit 186811480198106464948515979774501835075635292511012721475667308100⟩,
  ⟨nat_lit 1188079563527177350166614263653342825889638748680078985228004906000, nat_lit 1630871909460088760199414024689027020785073471029341664421651028000, nat_lit 42033799757135230491161303016001761019493102929700488533331326510000, nat_lit 120274379979573355716365713590259906280836880478911577615185920900⟩,
  ⟨nat_lit 85617038128263321690300009350220875661879480694118633418367517330000, nat_lit 1498072516385381498850597933179362498020057451846351797237122309000, nat_lit 9873083163700270949586959715386334607470543625714463069713670174000, nat_lit 127232152247532733775179487338975105482919311982518727951125298700⟩,
  ⟨nat_lit 1554522203823204410662733981198591487882208373626747715843285930000, nat_lit 17144263089074445176838328618148033440262836587742841842508093400000, nat_lit 65527900554363462834449759031901517589242443738738538550345140510000, nat_lit 386985494444065751822932031749012243154054809254312687339105068800⟩,
  ⟨nat_lit 46391714978447208763883629055568243620817718336095740197048900010000, nat_lit 6360182358119985435068107320526645327450183182775293612018916231000, nat_lit 29066376687820122523160430796018687324508598966306448964315211260000, nat_lit 909487065278277067844007871258654916674584326517241555664606714800⟩,
  ⟨nat_lit 13797849848605595839650875827010221100245955776651555518811902310000, nat_lit 59399051220404348192469305368444226105642207828920007369919444710000, nat_lit 8664751108325745854877213634613948149300012086329344280125890084000, nat_lit 891514784886342873087155326934345350280940017297414805954982269600⟩,
  ⟨nat_lit 6325739127407507039376827048106911808823952815298626713453580868000, nat_lit 87299423332489579904300967833781240057364417570027613290177368880000, nat_lit 1660487881812894978706644897041497152798836534671618959767946974000, nat_lit 130709030743414070304827876820027204804957946488158762565999382000⟩,
  ⟨nat_lit 19271344245972493024611245921452453422668494030240258943577691410000, nat_lit 669421384066610234245542082176543592413037046562425690565107533400, nat_lit 20566861973550797804527612639821832409897878396401322939688583990000, nat_lit 216527879601568673469526725318713422212524695256906779349436423500⟩,
  ⟨nat_lit 18034991855087715682798288603199438313900719039911600133129692980000, nat_lit 58862394916228575700061222516443442390525985671793503859730207310000, nat_lit 15882451198218795836068523138905666617824097524523204353855325150000, nat_lit 760816126746162874997535290653085889773523011293544476828503452800⟩,
  ⟨nat_lit 16996810265881440300129321913848890695263374341574116246459073660000, nat_lit 7242366871980576759471203344194597861567060119169770367314969158000, nat_lit 30337408334226670804462813024958000012287330863597757257334007770000, nat_lit 873326015698913363914738884357926235527538100168409257587802645000⟩,
  ⟨nat_lit 12395452994006676484377174816035043045284147843076888367035275090000, nat_lit 805152060676247435034134570726961264721240095432951205976949113900, nat_lit 57502334197035457142523210541285953549470775715720029045685448040000, nat_lit 243636043244661886405221148507680198335523638358495011862042931600⟩,
  ⟨nat_lit 71735037516660737092340785020856919738689490049924676028734921730000, nat_lit 1578553519528123317283429992514330334393739621917917211456533103000, nat_lit 21363848018429927993474607079137573525132939028506790189007812950000, nat_lit 249320792571213028543023995464828687005452761297750844885715913000⟩,
  ⟨nat_lit 15706561504823949749626927792878975642293861205022420979619900550000, nat_lit 26695802247146530505324271089892014680929376297650855447946917120000, nat_lit 30500118675279071412606284149216262597813192851762479392302620270000, nat_lit 1360652451058218854410080151765468806757961338273957987424475751000⟩,
  ⟨nat_lit 14016284772776790386133462384789770718498414430078549543376785890, nat_lit 34215775123296467723456595554479583141309005635078556850862523170000, nat_lit 37667037213525994532272040047514183084170658170397167591669306750000, nat_lit 162100523239195803833830729731377421519933948797642773277166380400⟩,
  ⟨nat_lit 61802286220890909003403196966804269573015686294067653826001927400000, nat_lit 28303778428870941797608352530053033960997650478551293706343981530000, nat_lit 9506990433658796167276108166479566573240976811833270109044957477000, nat_lit 163225723219770077810856131803657248970896808366419487960574464700⟩,
  ⟨nat_lit 27337376873927291584565230039045119773414705702652962911438531370, nat_lit 50858117503857541996898895874622364081094272926424473253764258060000, nat_lit 40283124865068577943799570610150894306561046207435667827129353130000, nat_lit 137766303877111740482469523049524621165056506359778277967288956100⟩,
  ⟨nat_lit 91311187834711894858694858124616574073719722289174875416613562010000, nat_lit 1578907432356950665231074940884918390700159940803592183152618554000, nat_lit 1768732946830918523424476339591810318608563252689646040611164199000, nat_lit 83493562286822033865937395579011026913271993220964699762094264130⟩,
  ⟨nat_lit 20790370157297755849437930375245267184554914089413215026821528170000, nat_lit 7565279663300800609181805263003378051076432524569376424972788963000, nat_lit 58939796088035394217110274525271947281166218545238365702827586680000, nat_lit 731362835955685780709505281742416359782707523431281077030284932600⟩,
  ⟨nat_lit 196381643767134947796050707664109301252556059377882136058821799800, nat_lit 96012373718919343739246208460461575507219550724450184475991369230000, nat_lit 1846309670659466119045337369679723464493021646609620217914431026000, nat_lit 20348511207949241280395714216858894805353462087285191587984760020⟩,
  ⟨nat_lit 51101848911568480700059476746041229688774337508573984014296527450000, nat_lit 39966389292687337445744525186029523923639550650653594361544230460000, nat_lit 6393357066050390912248314086368089682611054307946075630165780699000, nat_lit 311372726652176696732778548437950161117832625697351725421970909700⟩,
  ⟨nat_lit 37807016297669417230211002814363728659769354830866950543475226490000, nat_lit 187388846770379902581169537406089628485682020809086666910121027600, nat_lit 54369687487040547422382174997509644971669486679799743810736933870000, nat_lit 121812655683776179469067086442812781425464401258376641429684978800⟩,
  ⟨nat_lit 6868131379818039756965559961231650091508380956691492777468528679000, nat_lit 12713093288414650061407583026220337896466639106675783277807591420000, nat_lit 63387961772875770089101405085019387722402609641569836202488832070000, nat_lit 477560967690207751525717638516147349548798947010247609408478986500⟩,
  ⟨nat_lit 6136550432887361796095632212252027333608286180330854651541694520000, nat_lit 13653961985814486849958560037547853315981582853184632549039765870000, nat_lit 49216768246129920184113883267472664929533938885949665137103051320000, nat_lit 644699134879830092081224893548423135759879709093840207701330861700⟩,
  ⟨nat_lit 44029568855342222347784240476272373004002564107294225600721556980000, nat_lit 7254891510567147066704943439406291580037450586855929300322565398000, nat_lit 42165593538809729304658643378171185567138725567797073245525663710000, nat_lit 652181968093009179177720640895901304640806100329696627238598143100⟩,
  ⟨nat_lit 69672710665875004791301056423374019087155320978794516099662123990000, nat_lit 504587828623128370684911966940694573924252540284393959864184742300, nat_lit 1390540099150051092977921898975294844074869738656574320016944731000, nat_lit 64561114060315788649293745280227187918648464913031510870394043200⟩,
  ⟨nat_lit 73267571760493707964128410262544359891488159861320122477903917190000, nat_lit 20173605506067236437797203182818478642812052541148583464493810000000, nat_lit 13899963044993406192505410161418154650421884356343291420837029240, nat_lit 87524314051577588751141455637164725962862571784488958817721911880⟩,
  ⟨nat_lit 66895296731985094194658044975178749015856981104649392405158403010000, nat_lit 22229585480818018138553173066537175434195129900479191119519506490000, nat_lit 5249328443890520665096172353412806991893711301286712957382429025000, nat_lit 497081560741075379136959078803103096384055345813191963880727382200⟩,
  ⟨nat_lit 63754047970790311093786003747084355962997483063052359690854088060000, nat_lit 1504514542193731390236797743228860772359285439843420713265930169000, nat_lit 19206350798618879606690919478695204931722038262986188064116063000000, nat_lit 375883402077192215188773752500741827251952916953774558658779265200⟩,
  ⟨nat_lit 488343008807878764206906045628729061749169373564656787008027188700, nat_lit 87332991769289307461913826763256659825742246828711548324082093080000, nat_lit 12154707426591409598143823296933351467872300141365936558019724390000, nat_lit 18006175012468723489385128417326367185906634307470642726558534230⟩,
  ⟨nat_lit 4375537658039110492377930315627109438294483507712600279901917807000, nat_lit 35789795438076283260085678529132081737379943681680520333025892450000, nat_lit 58532074519023261412324929380923066551434346323877693820286893150000, nat_lit 255357032432033185170586738705711484220286546782407078839408005300⟩,
  ⟨nat_lit 9249381117266769695280822136905052304357009237615969142429684854000, nat_lit 46805263661453427283130192427452588120252181004955678323193636390000, nat_lit 1886237315919255978665407673747426138738815164354441476384389564000, nat_lit 424962900934601636544306322122816998238768047620479717050677705500⟩,
  ⟨nat_lit 9939528076427760726798986376423062972302260002538464769078724387000, nat_lit 6336546645215317645324218443181268689598524387792951069451799751000, nat_lit 62814780666063574246690743733330950673680525204051348678798767170000, nat_lit 589015142864748464680142191020927606847513530567990836406606762900⟩,
  ⟨nat_lit 85256511224078013113585868943314697816444742852776844485929362730000, nat_lit 8428666216030737726048053395652496243043034808285213478275297888000, nat_lit 1220947531098503049386111705485187918348854445057863473734110362000, nat_lit 90400283486176736407406018753433514149202262911705253674473275360⟩,
  ⟨nat_lit 1103434366013720442257792236507572899741646980857216851817306194000, nat_lit 1532914789658429012646615709848340343685556902536339544080565324000, nat_lit 14838848049684899198555450750262336466329355057995217514469789180000, nat_lit 80102234819271781349546876995865163154128938990354406993080983720⟩,
  ⟨nat_lit 70493008863511690335177890454591022929760379247771262696829024600000, nat_lit 5083940479736236328838448742853856916022134772869900183637788506000, nat_lit 5030173003411077695037962197513582089386856457498381018631156769000, nat_lit 385539042918850571740692636072084223933594746819709636203328643400⟩,
  ⟨nat_lit 36531693958575548360009598642645676819680791064387549166431111560000, nat_lit 17612970174067181937929815079187429795010695984303702765939379870000, nat_lit 9934272904792356098660478087113880236936408562913271124012645302000, nat_lit 969325787632067531209866629812870701172339636481449115984736537000⟩,
  ⟨nat_lit 3178904837993392182306909136615996746107758916416748366422490983000, nat_lit 88620702642446559091356763475464908002942451447885417921641369920000, nat_lit 6369566218917034461062614849261044347404218473022763576185262548000, nat_lit 120799143676597257960580514786998005511568570162536257000827921600⟩,
  ⟨nat_lit 22406528622803214916136916654296993991895127577678429186624769100000, nat_lit 43040360273871589150101580492497387729908580859278905429017672760000, nat_lit 29130954583862993050231856815407544845748678178735375149457870700000, nat_lit 769433203161371049584214030647190351535613871776805683051164255400⟩,
  ⟨nat_lit 31597420976531836715152405845220884743316339762004469552130240060000, nat_lit 27167831525324827013082699524479189348305619947580050326185251770000, nat_lit 3374272112465000855189461584323712186113881520989039456368174059000, nat_lit 715583560058689564609185970309930385600727613366925928769825187500⟩,
  ⟨nat_lit 12955308715287261598083301024708498462333816669684553964618088490, nat_lit 68278840067417589692669184476440316802557636023267973043712456590000, nat_lit 29640200888507700496723110162989540493256963058749309220733778070000, nat_lit 64125997375681927979666258680067044291751340537050292514180591790⟩,
  ⟨nat_lit 5799197211304155951635392141659724868910766984369440094981943040000, nat_lit 24798999671949766016956248776714641115672533845026992445572057460000, nat_lit 45540660814021050871197852226408997842067336482739022956159019600000, nat_lit 834317403847292825045626598093808418237158041303697300556935256100⟩,
  ⟨nat_lit 47777600281650825026380743569533972671860387372925470627462290060000, nat_lit 22379518804763828134846269256956578921869761382632809188486446050000, nat_lit 7333233161163351427734016654107284402767453040602024877530045290000, nat_lit 870327805178742129905657772615488023706999280100007570261847049900⟩,
  ⟨nat_lit 5021910192540609830590325744463658957211411749727409047396286408000, nat_lit 31275111655018967341589509891456078792433402711973322586524013180000, nat_lit 17565402960781777720967575791417778326887001187525763767710907270000, nat_lit 826333239864609846209970123439028344190325484721238678368514347000⟩,
  ⟨nat_lit 31808785593339846317662997671049177738522506018355854722749670010000, nat_lit 5063545313361337801803014646819156935372346301047124910999168749000, nat_lit 31750156568056418832232371172420943311766657958794695912081200220000, nat_lit 953879526677097802385611283817906394510020662972477422921341761700⟩,
  ⟨nat_lit 4057615039526054146069542160130242533956764379226029383939949947000, nat_lit 1807361948827851810411266650688515117944339070150354516569944613000, nat_lit 64367558178858058273357512602137002096470562747866387507211376570000, nat_lit 238188541167512651533373909137260336268561247063336149426023260400⟩,
  ⟨nat_lit 16018747321253950925909870785005463091847956997828839666130137650000, nat_lit 20880387907500029088036838107122433786598941700704895021716985460000, nat_lit 1939982552834983425020098337829083821823381223327601658433454502000, nat_lit 414631288821345731341545888263295393959807781898393448082876631000⟩,
  ⟨nat_lit 31436142876098999440901420616740173867747699862467225749950571670000, nat_lit 4175264341212441360025099682412636649980996617332435386855127878000, nat_lit 58108284348429662799463422492379014669599311509094750359875726070000, nat_lit 451490646241635222053491785586006083621343601932582427358882022800⟩,
  ⟨nat_lit 1334671015145449063380431427669664370585395559538069576718613090000, nat_lit 19868384558449194026253934531485236790302205522153860817410022680000, nat_lit 19408673826134154610585020048082762452530203699050878210183923520000, nat_lit 355479934528380734323910886481181445525937566389112948281030634700⟩,
  ⟨nat_lit 9206713149762184259544842117872666403357442858087137615195786433000, nat_lit 45238402913464223939614382000131829032781886502341907897902223040000, nat_lit 9763007476080953871334630206696305086287090866949517760743679908000, nat_lit 886159778987089242102987751027623194396041334001445498135471687300⟩,
  ⟨nat_lit 12320815497278317470200509707743250066323758070779569939205343950000, nat_lit 12066107155852372889126971095437221806264659192324396349324443860000, nat_lit 1227712139703208497907643996253289058280990994946156754738943247000, nat_lit 199354319279762414295947710810911059531955627034978936508293334000⟩,
  ⟨nat_lit 23394265865555064510067450724772910338910548369433891734877634640000, nat_lit 60776046510805307533696184872330671699876228334443505623154004620000, nat_lit 1784987849403398124857242468631945014918823284859751355748444467000, nat_lit 414535695287541627426697455901008083256364638108108330372459472300⟩,
  ⟨nat_lit 9337141068477132032905242802519369090598121095194513853996039448000, nat_lit 17699481774315154588622494579161471689176197906763243434510275730000, nat_lit 31972414115914487089310329736006305740547449220093466366865560570000, nat_lit 1061150958820860204171787548761180649588469908822017965143148729000⟩,
  ⟨nat_lit 11922719437825711606281513549906010212625298739891957256542126940000, nat_lit 35292454489991985368518017218771145831881925698763868586624399540000, nat_lit 37740232147247392055254236457528662767689144595762070214449008230000, nat_lit 1124568974486103418162064461145460851295957874616643118279826256000⟩,
  ⟨nat_lit 28403270092878748467524160128596387032928825224121981899402858080000, nat_lit 24424033317039945221433146186937978057406813584106553484655680330000, nat_lit 29604649997010485890395834496379525809387535152277393194240519590000, nat_lit 1190301532578814624762189380085168162873283029440918768772942935000⟩,
  ⟨nat_lit 1367187211234910305973401552830299228586972569658303404478237228000, nat_lit 5206320623592204461624121186567630344893704154342636204039993522000, nat_lit 75596916910858909027588267130435406019717813955178254286677208260000, nat_lit 197865267717470230241901085521860734453091915198097794799346788000⟩,
  ⟨nat_lit 38321955947194412803929481149989831456355330148522703333930667880000, nat_lit 35439270009686836251751270819807953837283994120073247074960564810000, nat_lit 15299730188598598499080515000196693560546223622904144547659642800000, nat_lit 658273812370644259610351483070259232008562110076940108365952785800⟩,
  ⟨nat_lit 1859198698898202944045329178346623348408807985289152317865662233000, nat_lit 19160734552614294489909639790983429737328544885992689951890142240000, nat_lit 34176329318659488768994871283345892880378146899563306258239228120000, nat_lit 565514415600687648620382235613522480341549863602098424739320780800⟩,
  ⟨nat_lit 53812895305458719979688994787637885656596178582516901592239571180000, nat_lit 1521022795718391476991421747776058708391212526915098060946340302000, nat_lit 35810423625504547738133529598474443503117604917157377441965579460000, nat_lit 388470310458593558544300934487854576226242930581364826432713255100⟩,
  ⟨nat_lit 31159410828794430749380407154159250717342197468915634672114596140000, nat_lit 5288260643681920900334104875507187491252486546695693261414310584000, nat_lit 14085310113165593746667752019900190273889908726538793894293123060000, nat_lit 830380084261125099554021750720185493322115266529295055272459287900⟩,
  ⟨nat_lit 60958910661362278616489106981612306210485773765497279598481888730000, nat_lit 15833164587508088437522346797131565314707968910720074668221099770000, nat_lit 7625342650914023865429899223172027791677310719211652221068218745000, nat_lit 583699604929500967232682803003855470071501458145417489983420256500⟩,
  ⟨nat_lit 487286591540210230256696265184746361389371773813508192316815706300, nat_lit 1546170138178116944670282450968199073444572548244309589469493553000, nat_lit 60077063593260847339781853208719644552539407009751926014353232650000, nat_lit 75832375155498981530935558781481177059835576059214974659772585550⟩,
  ⟨nat_lit 11582523098053028065673291578742354160832658220239872729424945970000, nat_lit 4722409103141988370812554768976897987345296148451713232172278931000, nat_lit 1355685414379169984981254945870392280902437216877355044142111800000, nat_lit 128649252160944185586021747869003698902496537663883407742713975800⟩,
  ⟨nat_lit 29354287543700425929083174378686081265978130585530344160050758270000, nat_lit 15164100544706944942738396137861268219244662405669068277028928220000, nat_lit 28564227299531090125867297340339107574702779682075160230666385940000, nat_lit 889910700531447571693632035639786543941972916742591473178125030400⟩,
  ⟨nat_lit 7049784559075366195830410075246361646307406962945766216998793990000, nat_lit 19828484984237464151650853753063677042407938575343231962872151110000, nat_lit 72396038612474113562103693422599714737697759742670931458690140600000, nat_lit 118923648066892610561020583763356369088648283527474127983249728200⟩,
  ⟨nat_lit 778417879185603962552063865724397995922213898714648369410623353800, nat_lit 18956290600759856016077377228422465438416594250762244916057589760000, nat_lit 50204000097681829916932312522478866856572333493851267131871800610000, nat_lit 288983908975471109602499864490550258575974863445570049399877830200⟩,
  ⟨nat_lit 1278380910840668920727423756504657354220055697524172925183997844000, nat_lit 79507375373782827274375448261044838159478993647846924245820655790000, nat_lit 14407958630068527923386730243170567359268789420857165427822428520000, nat_lit 169921415215915051159976746851793330065703913688538043031331039200⟩,
  ⟨nat_lit 506845335702672615048304394420384413260188922039552005604825718600, nat_lit 9838475455486387326091037109722533978142692285012864377357436462000, nat_lit 5778842760423515599276285378541354608147364238664737351211509656000, nat_lit 87574331081030775399558288765495049992496824810783202874348694240⟩,
  ⟨nat_lit 13948400625800830500963529828968418880057136786145521377484042320000, nat_lit 5411405905298610480059905585916707649196823436632177048971078855000, nat_lit 17136475213015956505817056444545627772897062756781319571880193860000, nat_lit 611690284743970051477664358789896088445629748740289739997683031100⟩,
  ⟨nat_lit 28155801307771054232784134894437113968808724349019441459700793960000, nat_lit 317843203026640164254571063171511590705570370373170182978823615800, nat_lit 42712473204892386457275034105219617470182191740303495827150349040000, nat_lit 210468883998590801181124940672859329295286362070700678359209517500⟩,
  ⟨nat_lit 5424603939641863706839159282288146902791773875261869063675312193000, nat_lit 1204644988067063407810166694945940605386882175762347886156739537000, nat_lit 47348283299970770206843888414038778442257128937968786267058723970000, nat_lit 232273948304427694069941956686993453858574723140709533585490796800⟩,
  ⟨nat_lit 96614866395652089391198013885136025501959388908399881366496502260000, nat_lit 13136716770276168452541175348193566362136753240335483499744244940, nat_lit 2916143387097869616517312770854315617206467042293039397327303519000, nat_lit 10895146396576601167865732159015561750736446037382887357549742750⟩,
  ⟨nat_lit 33444285857212573974009515152231284508865957584337491195862188560000, nat_lit 36599116728576629996839725264377215080495322886450786237632152750000, nat_lit 6429312176496736133595119274118022194707998699143832043479770058000, nat_lit 802445415734475904058145149420861197022482975201663549353917769000⟩,
  ⟨nat_lit 24837044837708016421767537752800064203821091609221831335272915160000, nat_lit 14741113721593801753481985686469157775337283668701758313014147300000, nat_lit 21843724945882030628791455069701020349502963305395607500026645270000, nat_lit 1042764264084496803362349562915983214028305436414657961770266040000⟩,
  ⟨nat_lit 24586955830540522908827549468562994222829507044187630477216845400000, nat_lit 17766042687805741582693592856919196044396492838289974447037179890000, nat_lit 57111468388253170991818593815414113304559147386096206422392595700000, nat_lit 218182610179479240009239347639315162330134664278681698289913098700⟩]

theorem jS16_eq : normJS jS16 = some jS16N := by decide +kernel
theorem jS16_in : all3In (10 ^ 68) jS16N = true := by decide +kernel
theorem jS16_ok0 : row3 (10 ^ 68) (6 * 10 ^ 68) (10 ^ 64) jS16N 16 0 = true := by decide +kernel
theorem jS16_ok1 : row3 (10 ^ 68) (6 * 10 ^ 68) (10 ^ 64) jS16N 16 1 = true := by decide +kernel
theorem jS16_ok2 : row3 (10 ^ 68) (6 * 10 ^ 68) (10 ^ 64) jS16N 16 2 = true := by decide +kernel
theorem jS16_ok3 : row3 (10 ^ 68) (6 * 10 ^ 68) (10 ^ 64) jS16N 16 3 = true := by decide +kernel
theorem jS16_ok4 : row3 (10 ^ 68) (6 * 10 ^ 68) (10 ^ 64) jS16N 16 4 = true := by decide +kernel
theorem jS16_ok5 : row3 (10 ^ 68) (6 * 10 ^ 68) (10 ^ 64) jS16N 16 5 = true := by decide +kernel
theorem jS16_ok6 : row3 (10 ^ 68) (6 * 10 ^ 68) (10 ^ 64) jS16N 16 6 = true := by decide +kernel
theorem jS16_ok7 : row3 (10 ^ 68) (6 * 10 ^ 68) (10 ^ 64) jS16N 16 7 = true := by decide +kernel
theorem jS16_ok8 : row3 (10 ^ 68) (6 * 10 ^ 68) (10 ^ 64) jS16N 16 8 = true := by decide +kernel
theorem jS16_ok9 : row3 (10 ^ 68) (6 * 10 ^ 68) (10 ^ 64) jS16N 16 9 = true := by decide +kernel
theorem jS16_ok10 : row3 (10 ^ 68) (6 * 10 ^ 68) (10 ^ 64) jS16N 16 10 = true := by decide +kernel
theorem jS16_ok11 : row3 (10 ^ 68) (6 * 10 ^ 68) (10 ^ 64) jS16N 16 11 = true := by decide +kernel
theorem jS16_ok12 : row3 (10 ^ 68) (6 * 10 ^ 68) (10 ^ 64) jS16N 16 12 = true := by decide +kernel
theorem jS16_ok13 : row3 (10 ^ 68) (6 * 10 ^ 68) (10 ^ 64) jS16N 16 13 = true := by decide +kernel
theorem jS16_ok14 : row3 (10 ^ 68) (6 * 10 ^ 68) (10 ^ 64) jS16N 16 14 = true := by decide +kernel
theorem jS16_ok15 : row3 (10 ^ 68) (6 * 10 ^ 68) (10 ^ 64) jS16N 16 15 = true := by decide +kernel
theorem jS16_ok16 : row3 (10 ^ 68) (6 * 10 ^ 68) (10 ^ 64) jS16N 16 16 = true := by decide +kernel
theorem jS16_ok : all3 (10 ^ 68) (6 * 10 ^ 68) (10 ^ 64) jS16N 16 = true := by
  unfold all3; rw [allBelow_iff]; intro i hi
  match i, hi with
  | 0, _ => exact jS16_ok0
  | 1, _ => exact jS16_ok1
  | 2, _ => exact jS16_ok2
  | 3, _ => exact jS16_ok3
  | 4, _ => exact jS16_ok4
  | 5, _ => exact jS16_ok5
  | 6, _ => exact jS16_ok6
  | 7, _ => exact jS16_ok7
  | 8, _ => exact jS16_ok8
  | 9, _ => exact jS16_ok9
  | 10, _ => exact jS16_ok10
  | 11, _ => exact jS16_ok11
  | 12, _ => exact jS16_ok12
  | 13, _ => exact jS16_ok13
  | 14, _ => exact jS16_ok14
  | 15, _ => exact jS16_ok15
  | 16, _ => exact jS16_ok16
  | i + 17, h => exact absurd h (by omega)

end Tandem.QuadTable
