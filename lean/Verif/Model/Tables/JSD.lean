import Verif.Model.QuadTable
/-! Generated by tools/gen_tables.py from src/quadrules/JaskowiecSukumar2020.cpp: do not edit. -/
namespace Tandem.QuadTable
set_option maxRecDepth 100000

/-- The rule of order 19 in `JaskowiecSukumar2020`, src/quadrules/JaskowiecSukumar2020.cpp lines 7523-9091. -/
def jS19 : Raw := ⟨19, 67, [
  [859527715028137419841393706429567223958050404752549212669191805500, 6087880055810979614882960488623699825732356658421775135675113896000, 675600540080363184153416824208926687981489392186096771995017967800],
  [1090015001138055731775549751919690182012199550520705527683400500000, 3875410751196880027090543855349678444665384136853483336093921862000, 4908707496497791651855606604556387545605264855626070262610070048000],
  [2499824904478421781223656312969571523838494622623132641650716154000, 281165874519953126897682166646593301391978166510700905671621249200, 1884641197882299684805190758352910758662437616264769519985668564000],
  [1186764856841286904223195587736783277849870275569069541194894581000, 5469215735004998131435457227714340909109898368657723296544026019000, 103945733922145266484414089103392200173274956814906270549999806500],
  [3667754791512117087666922891767216706842289381995247597465823954000, 5280703583177398535467261745450403292174608360738834531606066643000, 598615691914868155682204524563814608610120673249009084450221152000],
  [1095746670281619424777792731520505992162107712804030677777027888000, 2078905242262133913418370513987522362765040528939462975706413331000, 6349009373874566668128092351994116637359136568897003005398239551000],
  [1079279265194175193840689590833967265111702547579215918520268926000, 7636890005383312109761010412810797877285657581325744084176061931000, 1193727936581795014858994378448355769601395402879575098455598932000],
  [980406831641355129163398593413311710236595160061139039386731634900, 1320374103743844021416296794847506982510702738438021854600436709000, 446283441359584895303076318289831508696295186623088179452260634000],
  [2493626215901382949242026681348016399750930570299254373330826390000, 2049278718629509325482505333845617937851738089063065261180389178000, 5035724960597308278234823460409686869766203169878530095105465871000],
  [2535577313390338766159833055464137031628386162264448425541869419000, 59963062895233340327341510839725355649292173823954590937306232010, 2223795664602224930180175887595545859925723286709610961754425113000],
  [1145887972243773234150550013671497116428288093283935300056127936000, 2512900519570757870038308482503349076961502347497765943495632941000, 6236657937033636170156464260446391744834061549442595765367292877000],
  [53032485580786211104370302710312742782918577915316421559811969850, 4252667071553375528431433374853274195936991299769881793791267147000, 173955931852572507240967909586759236798935791075950680895297616600],
  [5530942054062970242691962539119447047675140128188819206416780440000, 442053733365891541390328938109575272605023328637018072540559717400, 3889127679386170324497219146150404625040042909510363183568322192000],
  [88586405282104622280497096317904247109926892496617778563382729660, 1346483773461656518413786453939936473739654694283642448047391995000, 2614189239297324674417121739341841797217298243946994279291640323000],
  [2041612071655005173278757079888261235932745140865098850663955870000, 684001004424979241019875545253663834074163281143647826581132872300, 5414392656774946155417477118711911372490098220758024292902627500000],
  [3531909214766853171780345294073403291632825106963490641858842926000, 2426836976010444781570587585747461230369388635063293112298185364000, 3941485375732723607027741698162231720402027288840823075501950213000],
  [1306925295715786077945806275477507054233101909008954675274866015000, 2960275948996222745598774499967564620756191733721553384480185185000, 68915754194286910553331546784495311875551763359715129345699245700],
  [803739731938804821295234725854837902438044907279430448840274364400, 114815518393624580306988057779516086136045000859185422580582942200, 8576738136071622691508142503256512960987522901905901877102947605000],
  [3926761635246666396652016281688648047126619312077130160726435338000, 5248874375333257922174866975545980205339875208447734009713343333000, 143454530792702778727558026067178129119001834594474376388650645800],
  [463088198910799512270223035724105410184041139114922826678001660300, 6576245602866498668492589949958419382370715651912279944720836109000, 2478236331247827400634199144397172940870139431908086654625378781000],
  [2509342787076134969526239894849756606487779049360070071943496549000, 4870494535500439729433803135247213489769007332560849250923255903000, 2551435167245432521764585694589732844378902405087669055957949389000],
  [1110615470548873763469971536371167123981646518870375229169993350000, 1854049593961360988537012080896812876511461697076364912002664788000, 1451753199934011836323691685569502516977777968496538039064735082000],
  [666977846559121013318951891871294293850254799565117678333242395500, 113880080543951931948680177401315715020446962108225094866546266700, 129154442032417654054807775373514211144365283915088780549566763000],
  [5801996681351095255885406557715246578831592668522661202496805745000, 1063783618294865551612993712945253859096512969469572931341483455000, 3041452709463955362208704451486365560854214250595518683185435886000],
  [2456798487355095971629791784636861119641455072636076241892932846000, 480324779621696374243462412918890800604462318003674136844511235600, 4114110085473692648931772668155167937714141297282824373602308652000],
  [85998763399029385621609019786035168132633227407144968483188056160, 3968824972962569352714652675511690240882610172771537240560825856000, 1039392064824559924553010344766157979309452207932935217917880476000],
  [98200600434740051392882295649956624890632571496852648943555717660, 3029227834759397333082798685888611011296962975734223360108262799000, 541403237636995638632140923626371600816582532611678765970863655800],
  [73017897771396653296759614304265179598093000243977436804411025310, 5323789599726438147777726085601240872102928038456551946811228270000, 516255057028368587214687533314175603518965739042936849074176186300],
  [208957775682904320867832772449446446459933946515114892735691684500, 4339432784726157958388429971756559190213837989377535835108166169000, 5102442780721617093790986104752405482527822818356877588199879073000],
  [86385329367109540639255996738177597472764760187178346250893282050, 1350178628921903862537421644488760231019504513285637855292106313000, 73595260368202043674407945291650027643908856452783618593235296170],
  [4391415004444721258199179223469027775758134798122567313131332183000, 1233026153907862091483167267510022357118905875815250600622647595000, 4254898378110078966244337358750028579992520569290439720471467618000],
  [482093401384605150494440355899229035413227247715179082023599713900, 6706311858360371940884207032146217334711690932136009315228127564000, 73548248724045937048618160451023178844903131704835019164056236240],
  [156990357407382284542988330638269944848728050093216079534637495700, 52675465403882221683846951807459198850586772194995479786041557480, 9253467674397920721804161197846868237676608364792791520090923238000],
  [415341019519509161022658167174814891753669025152556826649310596600, 5813863028508816237647724006783501826516735062806406935521752618000, 3658808978633617252115431475406176606975265456335574600159863129000],
  [8428202507788309505341577279911794850938899452128703933015017282000, 1332502311861600315909706296768441544283633481518420787096726098000, 117366307456280910803919744637281940008593894886626784297758704800],
  [9632590443581167087781739182526421293391822354207883616028065961000, 100418988790735135228880965470871621688365819538628954554684537200, 136334512462682469671052520572747025813304957858404914560207900700],
  [522399783678575636386574778964987869864940199366982297374728176000, 3415413868098625002303985513653770500095361393288050928400745187000, 3713868630077356144369855217317711615857846770220865908490746066000],
  [1865012228363573960528687710077722102779366782782650932371135373000, 7938161523236986719359220752471831681471671911955014552289762635000, 76638164918540519626295537817943114906316929904179586067118812160],
  [2810777519687947593742253247920166748380625072594224090094390290000, 4407764737197624101561439164169198313177673172683890935288156626000, 2311857683150206093838030292959064247667037245152819628177995609000],
  [147593927107061601639426642045920845698395250230018194069625917900, 74104734015022618946329513669025658038521050556545800176725177940, 2952864824637688052210885315615595976830035894581223464495822943000],
  [2445332440268856145681833974984972542309785666232162192681590371000, 6093601709763757599930450084729183315335889313118849320046941436000, 579493394077136359816064909626001611557509544578910383376748111100],
  [548017776358171791132410463412916290702371861237220792807707318900, 5807354878251340384246580043302267793358711019830688886647796747000, 2364740929675533274514352282678157987785329486955574229910236452000],
  [5961735848364711836673018083318245710827638909478122646325877978000, 1579228467757785042950887385368901361585507638226827528533061272000, 1134413599281562062220451078610669364078965821800856898933378774000],
  [74695203186309542693374408671284462402392532977648529073040794940, 2725796532873784418834680500768957739999932751406523066690738076000, 2048241605199215653707987594403693574399781311702265667090814074000],
  [5421830073368653222271060825800790080643901561600676177513915938000, 3733185320385800252444148170695691983391630349264198183050841489000, 761045298148269823085333999516731928117508595289536446911022997300],
  [1224626763454930656258020222197444559990951715942433183770187994000, 393153591412661040045937013630230548432615253412292238252795687800, 7481825694063941283140410591959098117733288430925701037630984997000],
  [2629499827226380312713834834515523274478921146139071886725447455000, 607247426345477981372410424194644384363589212229578344879067641000, 6623690178291948588964567971227110113495507222794835405999278265000],
  [502783903398967805551864943997081489338134936845898547288848001700, 1342121381308954061287618328112340129077501944466083257933981125000, 3198378002488488716691597555615735106689068679407717219110850957000],
  [154407597590262778348927931629757185939971233187014541720481536000, 1147629966750915921753711524624672404584210567104417882439924139000, 5775138005577409334205884003430012365933659808822883485656216259000],
  [152296527697257145791393011161256692755928911941266039271406032500, 104419691064126730169959092922712622376808606798259482955368751500, 686690711138213249365056045764660862924094222562693443886119578400],
  [117422236853972513873099638357711812359022765182679131843532857000, 145257022805694991872817432687655114840672262710748509672047705200, 9641583619145040334978107197585467526634965182714853461515452024000],
  [3499450749880391808925111297611631028656208747701664465874670674000, 4336739025993947220709799812896587718371343967413664552124765670000, 1191097529724983877336355888884302187634223552538350262292616141000],
  [6671424378783264753156171795916103138045383831061228274658611414000, 2556156228578073711730518942385273409753241336496898406014935732000, 671513779615547110990839791228450738278718285440599049530242402000],
  [227486780621867599258257641317328255538839103418166927871485600000, 542364118381712006504933102155639840390117347771263142350040000500, 45443718794413605842337622168941088770143112132454811315136584480],
  [84713061021242637946880290971662836247153765159048204978345679340, 2836260822168098796848341631754206126676530674304798538754172184000, 6706880041862203627557525070876007379793710931277939725237440594000],
  [1200460685829433647246576910898983616682798072439475829279301313000, 2113495978490938830056320254839540502292059016092586503790098310000, 5519482162972382131181615310294001471587937819363658493363761448000],
  [455924241749477582450296301726965005601388882323857191833277347800, 7829871296943571145415280446250889040573119237582325382266857616000, 488942437207530248102929493720821169042498709582027575459566743600],
  [1802020760228830145667315526692723825433750792973823343937695917000, 1343418330410120035200537749190246267773172675067320787059443953000, 6467356096430874239258942715610104578477767679178256591410896108000],
  [1947248590240765676003820609930218577079677341324160609995243168000, 7169640578877227981511396023997682303410156326027935663296706229000, 537125768700446404347689651694776453165625749637281841248598791500],
  [5344861388927187636452742120845224000290831083353471843232956378000, 472906346459297706284905294596704028633668966585543887442709539700, 66555206091175735126163766867127608493435089804841575601365821970],
  [630210681341087750374389432392423646354660242032760419587164777100, 1548392583946775116765412697912639092216452424892575900713106288000, 7713477631162040071178980977187150181236044553776432330478780711000],
  [352909279842335517235798855780793053601549508278827885974120952300, 120578483109842769823813001291543317194560242252644829200582008700, 8293742401132130816518220849196850741456776939591426854746461436000],
  [6051643799622817773751554202677376954491041463220758722647596288000, 700392972545494832695854708807877847859932391038008777660496019900, 1196411143897451059339667606892745250188533118000534922407031769000],
  [3185816136179423000133155383138232200120335667710908256348617174000, 3007265720208951997251065209441409281654340804373595291442711553000, 118244986373133404397153439301802328018664932334437326893935448900],
  [2044526407049172195817361954820791442816860675218523723707485338000, 1208884149227918943102266577661949446590978085616401800110003845000, 5710695009747759367762497581210664761038841031944955787203464390000],
  [4401629017499941018894853443770490445342021732987552367181961119000, 5365629678085231278060329235235172613831667160523983825185025498000, 77837554967969698038894513414028927393643769180253489295579729820],
  [5831288659049985816925580759048410301148277765299846943165092464000, 3910694573354751008313498766211826065398877032579252988994589347000, 143339482119175642651228304605573106609114542382494863864710003300],
  [1778544772590157550412025002876691046436946387485577636065906261000, 4291895957414070962551512329924557040402983960390476936946884804000, 3489151414894534823558637498596254077752465734082346420217930573000],
  [70407078550585820362821809744885215985199992661126488184974271420, 1246404933309793874790039763129331697876153479754655291845528936000, 1439990977412196574031332510757390606098316666933658953084954874000],
  [4052760795912554657448173377031536299686721955680841308678193557000, 755511412900770787477239173119512228089207170056420807560846854800, 534733784716137566819046603236294413808446342953192745350702906100],
  [3285561997611669527550571417373459020341806533168790869146013826000, 2384425613469881199980737993282032246951794779453846571884568423000, 2259285168664441191659925858574623983710119477566350697144204699000],
  [5468320819659782332390975917587378219276629675896238746366011920000, 345138626500084542183477162859018866700079418061646793796012391900, 404119086024954847662876527068855264431065182997414328937430205800],
  [8813517574690288774134159221437272106630650307193074919157127202000, 623598446777273220843602995937051009590258326047687730853161500500, 529688164262104344886041975558613656916331334041744989721597288200],
  [2638028978421740738546419585629496694867664073778963364104849300000, 4277583771357004468195280803656499662564117683221572953259913769000, 1099955887700437226574771369305381638880872398443369476288344392000],
  [81596018014303849973115645784309268881756049890424938979820978770, 6925967248463685578598796248861701144350559512063058487356959761000, 2599325058810087819084367100072315985393902414886199626452054378000],
  [5814435342797790706323862109597388726664655468424531161993274572000, 49951080340574081298265791508526193961510386736883467072086455810, 122921500049799871910650224484997018722664788275796873889629817500],
  [7801818149481343092729922696606415315461022376571954924779772763000, 1435474826864018901805261734064658370886269148216082241275600882000, 619197698535393378057492144793205598110915467893621892856766598400],
  [104579761338290619656684573858713849422862568545887911954646825500, 2570353115110574762060991078930144163326546701070418619608795896000, 117582963428092081053695239350369475678616322356033709505231863000],
  [1316622137763387504780998785338762648561072360751766742250123661000, 346076526795279987328099007767272766258824434164403572624442999800, 6495446778272601888052041038904636305574650292129342529782445934000],
  [1465420223391598678809057361902358769133870850363813952657325871000, 110958116398217343073792476251308262263974381144228680105841019800, 8332137883418926198760249707642461498643483134675463706927082325000],
  [5637837545997321494920725013389016249976631848640051185856857563000, 79316398523865050272258604462641479441841857363561653807079419180, 4176661181264085839711630223739380716438002840148306971987585714000],
  [2175978554027095234429452236622693051144123199945763508543215812000, 107378937929540881873521929232164105147593799128415652619804927500, 6352700689883631276475429799725016128426564384404519235653770192000],
  [514009536275614469641318357179208877136167035815025575036389927100, 1261758320514339772403246254316070945064876553551381864178223982000, 7511362354515488576657338675127283853448746723990405188716531346000],
  [7579659858092529390472892880529666380332013989768483401653214160000, 1243568190290063017427456837105631630069288698769651169667846661000, 409828252892601261469211579164954706138877573258168511405437753200],
  [511575065802012953927943031042558847357242381563049096422532766700, 1581845078956141280932293215309653630972513600650492081077425875000, 106996440352644380020367688173390204924362423226490101011597277700],
  [595024340314340325158656896307875886210860317900789773219861965800, 111401820706886491891399914097904390594805926323810739318346929700, 9192253647730895309990490392401036371569144978846340541278617113000],
  [3352998257375770724159746643863058178930374143066361759534443272000, 5296584477784021209420409692092968748872588286946521944496584430000, 39852697466813552794467104022492938874154521737731485057784821200],
  [127830251799794955333160605070773105032992563446835354676328485300, 2664236562452565058681821676020973796357665746219656835715152399000, 5009362849459034559689308216105569930221583230994025889490065539000],
  [46426935126876871227229411203078115284251637153381509850774601650, 6982364402587273396637404150350945201239518015427179386288728201000, 136326469338693490910023274155144142495663341070835124074951554400],
  [5878786516537350263500279183279840151001241846362932103849526769000, 2685113853079579027818324793341452230683336933261375089084493020000, 120025544408670262341216903970151488478571372095208910481730831200],
  [162817943773530933319389588470335772711113225224298131872956086900, 8690663749873522304189710860019775933812526252027906930710364870000, 616710483685410333638955047638671388675002804766144853463148289700],
  [528040098932744532239441560484997582567853475171448352296273240900, 433913956138753919251842699112788208326139591145271948342092521800, 6149043027612636039185570958269385723352980202522397068445740925000],
  [3798176827008322407185815102891604730380219334902567851446814982000, 1793288346556778995304343890688295246799379091514137043906266255000, 37087445573991538724734194466130335382719642473514816035220905390],
  [144147394212256408094502338901358514621586871358898713204458534000, 5602578442476459104626861192914140162946364648682575596777308808000, 69336732076871823310416796618272508539309157813459213381560702600],
  [7995300338248803170400603329103622705835974943059461461459930498000, 607594428036090354287015492195177321785799185031612119835166817100, 1300543075931590935765888629109541419809349085053300424726965839000],
  [22105610725451111950321272934077228110363134383955203089490403880, 5629611280058701258249645729069848751557264579803819631645015303000, 4232009026748650281856431464987122269827237025438443263924037107000],
  [395159608650014970111062947412171326440089107913254166920088742300, 101445874746087264956778524352475075187347014506832558563299359900, 1573677007230223367823385573972244945869674843741831865077408050000],
  [738198778396641853753193083101741853816095271935813234758438798400, 969745254510305983598264034585381685309385924452644064112573370500, 6028503671687967370999350812858637877114060493625115303098224623000],
  [3850881000679209115400523408590221860240768927758243488689130198000, 1748657443381481199737831835672424284500298162260296466710393355000, 3855356794009747984628494049394328778235357888947886911309918078000],
  [346266434463938585621768639425437264738986559970740305314687051700, 8039756262995586876024712840612233490569452542615642604629486695000, 1491705721861676950478830730587322168106032435878751652674214122000],
  [21910500905992870505255027963664998604766087705198447005300266190, 7928633463325459663794586166109788019884488871242719180782050700000, 603093253202469277974118962431993257556114727665568500309320825200],
  [147780516094597358002770870594381940165378466620067920320390195900, 3877665020878549108549715783169137532612341692235067332970583872000, 2123102118836795641250524781533909374343103762902927837447263737000],
  [8182674839945287336644143034701816031686745510285383772580924155000, 85887750149942954437558948636996467284281546144352230397856155950, 115086865290227174610690875234215348725938776720751314850460091500],
  [25063111974114989076876475188285426970423846977501776338428999420, 5470030868258113577179275986770744283600892573852213775426600219000, 3308168443170016485202915920223973269754937469136991688600065454000],
  [2110561170781058002325933971132986642534879089200832121472563301000, 5454506960615396951509003392808912174443089656047753917974320981000, 1368944153874918805622972631204460963326770444599978645056909007000],
  [122512431782741049540609267331397320328980745880092586263175187200, 790037733001572219709437255600976468349004455579361355030169292400, 9022036017187264642678883608319861673639517728417459851505462154000],
  [4314532022011592167359435555766615920484953611456969090299776757000, 132736288722896749619541910085422932409824103399181025456296952400, 106987410187700523443745276884172233046494452682834760913870191000],
  [1864784448587538716353834583609059027478107257500910334887848676000, 4752588179887475442955626098401267442375480293745656712553870820000, 2447353634764088566402539749155595466500846648555057923656035969000],
  [72683535809980544506713988533602636243864548348633085886761302240, 1750706814716547716463808804148680317020977645377216909997887842000, 7355302372802278854467374289018362083727141865658374637931778814000],
  [2928386779566035233137068333098086658526132386527926148480849559000, 9770706508639582592971219244564967097631208261674565285068369271, 196623905136518630570526824690719864260916716395623075266684326900],
  [515786278661277614672387559851164017008459489154849500474271456100, 5538818633882494634348136238945959735034810929713531457587877269000, 1557959792928289107427439240564226625775238592097117626307291201000],
  [66885905289200862933335893704799033158845037354340737975903709670, 6484525187057251146707112219125416791275187123722805867850345257000, 1487025511341665054051197343148980910475208817588514405726681453000],
  [7904498261393225059094410798065412992237521196614659129117548721000, 393563975079545554306002364101581824810750858187888827742115555700, 1149518514432877059933041912090272890637411004268620706508916077000],
  [1449043265160080100135638999576189176521218650885620636576071298000, 84590349554087935183794737909748462428922474745782939171511124300, 3070577237326287267308987667977949201218870699376470228282127641000],
  [2047709163361093018292554687369973419004474860197658177924490755000, 2607927579207870873946872070320795991225045533237214831837055823000, 5242679463885313181324475398857928847823084655560446649638123108000],
  [4405798942865470963520037170634833392312771830957766755456190949000, 3769355985690362637636739710449714675904808673810851168186614321000, 93147603424235740353214627010852745385218829958258777993097375720],
  [2067339448327233245983097655662793807777695311080311253167298444000, 6438092227779950217078129214009657475581812667937071921033428198000, 1466717085096166058961494353362821101217349968047068872706697900000],
  [9089789965352639262866501660642815159938632371383255736693386711000, 123793493449595716914743767542453536410362975393195108811769006600, 677071936131317477787280598838381064791075156878893588898079328100],
  [3392015006861278913037423795111113275433429926110687223615517093000, 2119040475775734223359417094148657363907179433140131254784197359000, 3218237825857956133211051774049301211917083832279709055389176545000],
  [4922523234564637034533664153536275627576305149061936354632595778000, 124290162845193990058879332827706545772894782126853173502160442300, 2326302796620177448513228652048176703547052399773914953718849185000],
  [128235771418494241239896577510472477030273076990707027430139055400, 6520458920992602650320143929292447102147869855407338999028905267000, 667540515503917802674709516216158601867044486501544438822441584800],
  [6351689596106041634544866661166598497479153855580533786027366124000, 868154016285374677164848652622410415942338134442795226312624262600, 106999341225510131834960329090753875409473201688199007477568369200],
  [783168334788231089430605711054503248860345815099380146152888079000, 8985857500010212248737057463982902618212922084963797491479190297000, 112159238191986161535247873604205972338232873861743529128685561700],
  [2841940405825054787457357910871794194435667487570436329263229083000, 349408012925855940658748778940008377637538787970605771441805523200, 422748001656077592911825857788338866468736611213345623842940507600],
  [130393617588361956777864481972288244737623287325341392762171211700, 1421966924418519346700677709664078789496858358108138883250923667000, 8201576435993507725742960591689078803682789061502897376179257554000],
  [1285541919864463060258493546733424365815689023298016973003427741000, 537263749408032166260777242621521936781965730817407494897301399800, 477954555238229954501536483032615119118271609209133702754056803400],
  [428303539807964236965743772857298997579675650216555574447447986400, 2357659191213900489619725273546415450986122961188487475778384190000, 6719704061637602439726567955388234056001580943348706042428688249000],
  [134054440396413846326002747954590626406073395683047305869566974000, 6380337394391977799732471408345714725100689746039662336306551969000, 2286356576820788148584840906177049570533673307158839773274424878000],
  [4202750236176670069732257339921362617320446110489949158520583541000, 48555291597013649932271127253014876111180671178851701108485102130, 1622187540343085742164430982667817077620665206090135723623533599000],
  [6461010093527092302772586624358241138469566711486040732318337745000, 1306521091680621825889765550860848793369388998573324292815344514000, 450201777515778346540636437854057983344927022008519511421235001500],
  [2719735685638001918751602706951300279841360509018638033706593379000, 1313128139505995197664510833743263439975198892947816609006630708000, 105945492195905340350028637682050442778156440912240467791033142300],
  [6750056711852731679840190422639109888716023925777401142409959982000, 435256880793499027257499784161381168599112985488128312594341120100, 2400922048057897345346862128238877499130376953460750386434457043000],
  [5396089666373174259995254970146275518461372671245450796626008456000, 31364586336007896663291079251356885561399351835225860455710578760, 703793725716937496166125981761044952526754339862338238118473401800],
  [1916607189055072538071152935871553351733387421889916631043005418000, 61746795434376067137804845382480693798358474165973745769629040150, 7496377679888276417760729017633831663988483203891123685367005078000],
  [462021624864232898076969817126133476429154341148224798052242597300, 5495392447998961959802862852100053156341964659123681943604206913000, 278953798891065331991863182807146696403099549757338471764567765000],
  [6588357718436020904788594446575101598523246215880953361636947955000, 2878217951180066452507539671023337321209814009779984769857629840000, 56375989108037355235715675160235979190059224811712796954578110500],
  [5160858623648312528438522311233588080229236634649883118107382585000, 3798231705548206118565792130263594516112365448296360090424237443000, 547356432129444645422573828226443754131029039430591395811537733400],
  [5286059251768572011028566195493325547828738391647811869596302485000, 564263278407253828693741039635926725517825320140989599708001298800, 2394610020962577229787830300781975146723489520617855260880827333000],
  [3492524579581972465694909168934724422579089336754288422910980706000, 3325421178681014044256468967484440797467833861126932805747506130000, 2191115858721736124092177804432716545706821461562272418636408097000],
  [29019462517344485462401828931824145191163691215773317990194229290, 297950613395260588490264902770020078536489068840937582954477536300, 3667751192760232956154013901900954151876652281230502503832248634000],
  [3691049227623072001588299167111549415570634856755895254826071511000, 4823296350544467413205160451317593199814169685174899189091848432000, 1413946937025519986974214218270703311229236827785833110806588210000],
  [2723925235064168084489256487616415315101922844537662287762836663000, 114536187320199350629197892205557121243991016284257685204755639700, 7079460781363003795760827363581433949137382691738179345388502014000],
  [1390634951650220282670945229215726795505619912580215090944884564000, 7913627858715787911746118691931471480509459651904270811132195167000, 112334110073245163822834248687228966988647594390964540933778596700],
  [770544458521599318643731779189629662704925193771675788421591754200, 5006102692901794340306494248301632738091005844836144558725059098000, 3742247150357053110673216515229708764311006412162913528644077010000],
  [7541315958098894553882623022128586160141556944366197707434674079000, 607339175934336685477943371854646392927492264985166406120638591700, 596352185422358091503976771837033469556843811247354746105780500300],
  [103015184481735565055033939638944881354543864112012828612973534800, 759426935827895999184734905870045808025536878198189823633728894600, 7519657937342242153685337128429018282877071964705508263833018543000],
  [531307854822771231178379141979250596736881799143131030449648488900, 1249936045483163687628341929802036523606641548332131211452209463000, 1025925025893277419881780633574765280196342475996326398007065051000],
  [1810976535079918311482402682821758836906674201036663652572364393000, 121390288547582162349677485723214191601950405368903452195938366200, 594643454656035238590712443946141866373073633979406115595187296300],
  [1963428903850944100632460486793820611703061045816868891784603889000, 712353115824259256895630056223187743071491148913829952790247554700, 121434573615211665513586609188394887938403410028805659915984596600],
  [577251007834618573586443626839251394281734122860759646380488260200, 274549779654126348343871541922948340059322738416036445449767051600, 515960174484488747190298627234645082090612708668858609374368014300],
  [92703638662129983470517067326581924188224301266240051694161970570, 7719108999512577893000949766851435880876110995404109842290690352000, 1439495603767781647179077643438663725700939960957000020070656935000],
  [2831397691859082883557338222674391000360615384212195343772642559000, 6617769771529046860485381935874689972004899492377436211191263433000, 118443570179065222835813732409986769691715443986380350118660788700],
  [4817430322470478397535542737333187376385697389696729449226374709000, 1176989494134170438908958137614601788912720454507570952441337789000, 130366230563186633478595610919275813115892855617039924056831154800],
  [602490342453414682653527046189987788013456062165628474392426130100, 592375269354025718336470870836072260629927463428803627621010829000, 8688018790428956552500010025864779638893650343029803371072125351000],
  [684550862356960771458260628584044588543644177095041610157404849800, 151939709385683459036397487344373953317146623885119270954338925800, 2533286927454695435919621939707510950593509430482416560692008314000],
  [2171398253282302088544285351693939075188267155833047752604946239000, 3298024031370629989410870625848543802295505907912199992731475667000, 1243698391725922041809507790860385484447406855988442426934350853000],
  [1079323789782269961046465521612390203144653418762390068954920326000, 6799754300852289959969230271776386213065089355285469333386983129000, 183321021824935604233808870533592191092018791905659909028273264200],
  [2801256734891065983686784495904683620309348556292698588943451204000, 272216139493239165538843224935003487888893214346426344595050005900, 23128691834338034929759584984460166735298674191471866635148431180],
  [48220242865328130722496075064949691881571705741238567893802120790, 9118570107000847918236104806762294404451154076308859228146169616000, 123626447539577314734676092031477064867362554652635276955607073800],
  [142295868348917529560215917133058869551796796133521151259711054600, 527838750360327893390232911831266708448572260896271558537823144600, 2272262201691643900546822782431169111719566365723937532639553945000],
  [3582953735150841094816429434801085757167969047830675429335244538000, 60108941630388347804753511291239659306214354555211646398839566030, 5187157291675721020979920482016187923613110687117103749501163879000],
  [1334984809856116522720799198012271521751057193831415408889654988000, 4384796294350961679327398016368850704239518187217531859734724257000, 1225339163268590297619076800518474702397959124521940978655309609000],
  [6989769802538035231446321856725370354144753367193549657713327078000, 575726553738170320699105306762438181662597105691444791387302364700, 2396156664324301868070394082959611057721844832680544239805139056000],
  [62995346508743577858287577905437052627169047326936425182651041080, 1416031691511888023175347850740840525643790948825434460571390406000, 517214109846692149507700355200105950243382953381014531634071576300],
  [87229710382704376683114093808165030673413348631910794663797927790, 848248414845363017345283559308833362974003612307622611896033989800, 8276621843008150217369734565832565645853444108395213261315376896000],
  [129417812803890122742639226942769600825569773659834460854850622700, 2798401611236698007017856757054937020655651476082348626234565572000, 5916452451798397834699898504624801382389952046510515806841112832000],
  [291742830496607296585237578200990554899434470911635128015307859200, 583536160980911189897581878928621881646691664865347598737471018100, 1218399977636024164683516196931379437485318397780263055685169110000],
  [123765075319133076734210190557778059509981421882152516609382783300, 101392484338099238557115281000613621720403376376905914131314370600, 129240136944155028465608168072519147069765734056818709738638220800],
  [3164792113621352896719265938935711591533451896959723158140967179000, 1646072665217280510817218281914022862707910737407438031381614795000, 470054560649494345630338402803115913273571793195026177156745646400],
  [2847323823313864363844251958214840593425537226818365657831720091000, 4486024270426212251449385680754812011087486780324343832238960503000, 76963732531603139501762403873292559385948955061092306099502132070],
  [337950001648975375360807653082611598623720834975266231493372553100, 7027052682986371210375830405848770013484290374670640418310714116000, 1148677384183933168293432985530541768200865179917392790119112577000],
  [1433120245166042849149223644224714914034447176688399093270852499000, 622338011163296301403385282019341349653269457853016398394896136300, 7899478628456170030303265653895578302258727810893208547201423407000],
  [8311408956657346107422420987148385992485305380831416613333098522000, 253078412009706934685746224268446943653387786293777779405602622500, 314195771660386278163783683191173906172992377229454443871954630000],
  [4180349838064569635701869843348415912070276602436372602047464910000, 93490185856451652186644446437016290940758080107174356818021687220, 5599493220438896902387644991161629389776928726686878648746904394000],
  [133455369104286985418865719527753184937071648843551780359320423500, 101133023361683862272288859140586901600602885646108726598386845700, 4653433571660054370692681199916047023263983319355551962525316040000],
  [8692893323203175734231796039330641007594311656507405165773487225000, 75426027481444076288410118772539580988123425426208970414216334110, 644932735569912924484851169736272750404760848567283863699418966600],
  [593627599944861943754388837974123225740651841114180565280654977100, 2226655093020769296181570687687394260728168580349362729526098378000, 5934251911617299065208036221283597691053059303210892525278142571000],
  [4757756637174051589907395466417297019800060583991664370506407189000, 720524328984079323546211008087270061055343866589180335660716659100, 1866572168708286581878352433698352261175677561577080266376929461000],
  [374594425466039936725602590077018933161921378937561755981888945000, 6939027902150486829686581390567222922837753856820287990294414331000, 420677224962547416712754208214497988308816451176970175421064261900],
  [1271938371797284136444512503338670428311955517821303630650780304000, 7089993012480119979962535341380463487268253530194426649885135389000, 551144021619142032134011297863880995624914161967895819373184363500],
  [1407817012735339815789779358656282534795961083548453155771161843000, 67505214608122057425616654277059330074251531799824753872538968630, 1649825976197442034758818699601325389588042760981038024430305111000],
  [579815291813089424445367301568833311716817893376276198715395047900, 7485098787375016924117010375308379878719236226978721179890195714000, 1349679407812342461615005600544680808719624996361829460808918269000],
  [2226394144965386236586639637593088903275029194977614495088284146000, 422148063767215886744208436254838769445662707942700037684983827600, 3026591413445078859803178241852821452774860734114936671018739250000],
  [1044318353047717620654719483140579272389782667972273402750356262000, 141200142767053829902012026446839337170497910410995796112175729500, 4639749269641197713090922255744800877517734886013269304106176797000],
  [6995265949332508762253900287543326771744288489272800507571837385000, 109909504022083898486482033227093838102663382733092875364630111800, 2788751965722586283632327418147980714115866814270917700591954751000],
  [2153749590715633423371283155005196490393650232962779368208344411000, 1904013951736569386235902852640489959648959990906379245957408698000, 2338249873127818701904261239534721012759386648775576727270014418000],
  [104662468229093066404022586834177507087273709426940913494719959100, 2187454958807096914614834216086633282944231091309664332468724314000, 3187602469787128089119334919825318296051958542895793758263427368000],
  [7306191934621068472258576055687224659348142662334788725007496836000, 2487280227932742642146567074417979130651886493408757760872374699000, 131378343691406474258122751931431364634783975394890405487291233800],
  [144853050208149683806514448653607772529597923118047157660871171400, 5535407243498060593049070477296253005737094532944036550063513228000, 3773608974031066721139805814550701654691844614649844958163190406000],
  [9094001299702989773795124031813517817967164040565863586699152112000, 131874854557813534337755478253337690227844660221625315606127558500, 112483252979663849684664652858430904521543943686950933175468683400],
  [3180611870417530567757269683876656206334945625786876269406662511000, 1086952000898211731632055007031239530899648735738573929628880538000, 5379382885334287281108769359033015986812252630579947537650702227000],
  [841424588042987499478331629918926348971012567370486940341790753100, 7697968544287001344285413394310501249126859290849209556559924843000, 68687376556097764090046721003710148594888090345734472934071055560],
  [4284380789830273543096320614213155097565474463873409849458955211000, 5126634064863334866484421758303753130554179853660786407099275104000, 502730249267573518396408065803591321063401131378358556867880794200],
  [3157576761880558941531367887967105751037428090588547529492003170000, 132683354143189802448162336152515253162916606670318898899204320600, 6205459731170819553831534897389541807922398922767563344796514651000],
  [77558977377084827009334128996253188546813725963969497463677459810, 2071509477367018849783965844074986101874538765707255821452112688000, 4537631462410242747783954832886264303015417637122887384301696684000],
  [437524703109271949551829006439599463547159166888546575415495357700, 1827244985346609844648061559645336662642602569005243843835610379000, 4129514728651410637432568460746427966092105277971436401248599456000],
  [4052874662101079349458564557794452903586769247485930919259155344000, 477153482100626724253102694450343711657760402525435191227695633200, 4953874446968034771613013841347639872908567493523925509205318867000],
  [6973701104781675574085089802515269242744473486321788291366024737000, 189707597272929489186663599629240181302973166120962814984798964800, 71143593575011201731146214412739114997400297136858980571560202210],
  [7031818151005948097114603377384447839618819552730007880795617831000, 1509297215549329747149731073161119237188693657456623057285587851000, 69710585078830685868745541563026169655606469702388097350614443990],
  [6533997971348083558993293606068891539792568673324051778154919273000, 2554381886999160292681066067747164133201676470199932458609052419000, 442050904919638804749093718022221959514466817317223506424919610100],
  [7579549762757517779256473666653547935562749795046569069392956658000, 86321287939097750519402668618359679306862169347200192273668380150, 1637450627172126987129128320784516483590011662986280490578478558000],
  [148832789379058405054790071801849842854602222344158958875251102700, 9594295038002265348612526302216873759054712122681090181064069693000, 122635812298988688746622882747024215797530449346019303290049750400],
  [433175229129323213224800090840296355117038721816691192251123310400, 3013502465557148548617902773140183113615582980764284813336925975000, 6471922616243308170278035629040700341843386782400159461488323271000],
  [1194506297657664609100389889499522446154350697227846697540790165000, 3648491034897142259535647580815618955907180413095887849899487307000, 338103918466903839566378175637340142047997257928117354262552976500],
  [505962463730420466571404681760290508829379820394669517844140150700, 521442690628264185012392372364652898019499461745171588279687521200, 7491461725611474512450526682858953501828209316920668312338366130000],
  [8560285004301059515294881837380794229785553549509901612771013062000, 715629326766374254759843034974872778203880395214128244608566693100, 67129473401785307751787668761464662922548642021232708632529524940],
  [22330920509943380591225397026731541650409884658259675891594673880, 125135554371693655225045553585433999208605769086921307335790739100, 1681476883050160591772090860420146068173825845708546000847832954000],
  [5231813472600317009737513397176710646800459254896510027621866050000, 1120791326662495718690147126888131939297869793048461936545421034000, 615675404512897309980784112514894696590730614465737699193729617000],
  [2186090205367808039975100874642775974384611736515120762519431556000, 1071771206559154012119351999500810045111625736636449444215143448000, 537354981682452698682089951312566608450533811292320738097872998100],
  [449708619025609704070119051017155380064586299109525769680680444300, 8857973271901770699333245719465090667841643951530573586507050470000, 608335302613482409032527380600732707194659952407160781420565743900],
  [1636913079731239504157537849452373383676362142664357677346049727000, 5815690423079391353602689936127840936634144627261432579985065968000, 2344782954778802671048364348987520450256332591990728439355000060000],
  [4298862236280218103389253418357077479128204572247635360425040130000, 2880484671497849765600802612836882591289805839592985325258773131000, 101155522182397115236019451955581184944574479900164281561025227500],
  [142769769043882598334224674297799575753951971774362182276528136200, 7105648301901424026921452030479434275895499165001557964398865300000, 2706659567689295573307458206995978233685528606739882672167549973000],
  [432358391763518642248377180788011608824480705822224492639155649200, 4572801797691881258809014587227262472470972250953781845989265170000, 2734208676947149232618841458872262482724116888316229892121544881000],
  [5008659019211249703937382259724327033298693741724320753234310460000, 2351489285458362361844858173242965006560632733613873153271319632000, 552781210459168617899150963214602026100445470601003457906122725300],
  [449934344686685762158001057098496781956329827064088233049080529000, 3021967879675745880423495228171891565145769246002471990267532562000, 1332525177022275956052501969235561247442536831927644457288957516000],
  [3459077559427021886441130878149464336807189141029622737977789899000, 1233554931296509848238863975525572521852111581526700739243877730000, 2535360236622349910420717317206490245465211654525698246220412598000],
  [631697352018584281541391885603914056846330855001847504192695288700, 110038752336281293991713739899478005746532365445079326084310165900, 6934622242603130589562573678819573574521290103220977806263427502000],
  [2323656802015384539416454803040980758441548701946660410192158467000, 2416280335128118515118560805200833363572869871031375793523444794000, 115096780225473740876919063122848149602657061152167564121020853400],
  [4048922652087130245051425380321521435053893925361200593632086228000, 514564944716517162834794030697693992678910528759042617801626268300, 5376800514312109862509844558709785321030416244292929093792541683000],
  [102412495886141987245904751514358715593505120404897712181923843000, 2304216621440370620670463342617566788416192234981249571529069257000, 1224771618067651724875321846121686855866193457413213844790099934000],
  [1268643206399209992647228444897238339339214701796964972032927574000, 3167273088167407891660610039351893578420926774342889953486462777000, 964857955334131681874276447909256716839365583149557591091490121400],
  [920316968497394594881918700028007260783670933123999850540631749300, 665419788849977760533874098718817027450831613628522542072593015100, 65168827449717009076434475170130884115169207209900299121537594370],
  [1834557885406043228922507675680698133714892985421652436466617616000, 5826504701776864145107270607361925920773709076906997979996485579000, 112148162263922593087530162009841813718924467075669495404635629200],
  [1420434587642287217210880945131644998547593287135776207072138708000, 1466054251994289856187890547230819496711175954291571364739939087000, 4877368521577567976207515655078081923337742930134200889701574843000],
  [1068539708852586532551182854726119107749956718628206250464145345000, 4472289826001640153363800881434741754190112471204855074704142178000, 2844155014977493911249740528200566966721758162602030238697229386000],
  [1344692030881566145963471191597315064280551953538852552941666358000, 3368083827134554511677740248019418644580888777311814984296336784000, 2717454816545285876241098568616238634131790182062879241353906371000],
  [25549083180082137422384875800894961781619342465569774035229940180, 204479563707035721569907742139978288477354996248440888115713585400, 8565402648060665512238876998973257064639128415492828143358749251000],
  [4408966176273476034645550643242952029336823208985084731385622354000, 3829185162262692026680600764024666107805086389113332990559796717000, 1391261396796738191160723615442485727725134827136868846699861502000],
  [648575302875119792593350562615782620034821167027092659875937833300, 2454047815056738795281384331675032598773111243706143751788284379000, 693134408964022607942415514029280532173274271496247193307460726200],
  [6517307139710275412623442557432279373144568589004358884577321923000, 35710711539122342451470345990540719160513953242602980642474319550, 2892566634880247956648499236757341716502901641015593799603024883000],
  [2824035877709408887680124058622338446401969186431446134986976310000, 840680048446767332103421623700064006644828511246870057228874749500, 1020559577981133177760227338108749796304642920360564860262697701000],
  [7376951224613909244894039088207562288189351013959831003496752209000, 941907293436463247190155531445006788823193705881380084818498978700, 1377618231757258850833232110023269786952467532755578402412754498000],
  [109058143912393190277176161092276718845473999459178854292346508400, 441699969035711700548499489956319349075472957723194156558222289300, 6844921242680185608647317923467385236052897094384134359329362560000],
  [1600329962622842704051568082968815759184733743869739322158296522000, 130253691878899880049557998908774922337989849290187551694738896500, 118281019481416672358676316788405352806780723821161144541574715900],
  [3149252692483614156528398963487885660853029817471175145063938900000, 2082521776687901168955388759820902593280590618061132357844015098000, 1554449839142258737419923934604760697916126240359265279112532168000],
  [1637217305253837536830431388796350897050756819425533384751638290000, 1410742652900240925847001182044417260444298017302258351115573801000, 6911442976094195073628951910615463880176027086646565231687382611000],
  [106894232527654229405982305061894956995372224299900338252144153300, 1174314153796329769632234056776129524086177330335812040826792653000, 4333620230815625007757393865281179060425254880489561750862688644000],
  [60271603768480614643983860910386596241289418495829820959324264590, 8282488616372025809328357664702950855836027617669143076449660392000, 1505849438641980473454349783546461075295371196056399158078584275000],
  [62268744134688674449770641141374011699976332542561191852796754010, 560785598576784640217710798092986058327447223193807419978019305100, 937418866708096281028867098011779196852624862146565061704276640200],
  [899746443867542445100530456061246456789489950291228370642148068300, 399710392022680279789889055065370417478928287132677271898386865200, 1225392265508571786604875113872969086031275051099764216853911662000],
  [2036352272312049231410488244267832435571542414063238126232588065000, 90370044963009326135326329659053197671132866635008202299221486200, 4049290992939442218381574744072149202655461839920236483352566937000],
  [433760337522113632069797579473408780419605440836872822418700236300, 493204132351361239782980590820624511537601078085913021807709515800, 3476839610710102597587515609624006886273084184657832705581920870000],
  [9252796246429687193404150915487806173362732707037780727200787199000, 530282821117033386115478717014669087789778003091709345176865055200, 94027677701622812120846140655241998628168786186729549191221296770],
  [3089094965018963061981039342975793800637114644841841026320516099000, 2888994105385460780576056671433754664471627538441897104182322455000, 1042373498341085294783850432485045320218442079491224325252264443000],
  [2486559432097139663922381667226621814150590775759751204934465349000, 970987161297109559502985424368491683140551041337790422995762427800, 2934672378519280066822886857201832678520597042256873050413177175000],
  [2890578427140760335454986586238457087323480876540906692349950330000, 1508615140841800643550959151449180729678236723444953817813956709000, 5557113550285408116328462557087968400574018584707673170986209401000],
  [4591270378764738237763307464644484604015415156758979029344106228000, 395274887084042911716452890983878087221343586823679602755204877100, 3713337300138085971528214611628194895863381266388210402143440364000],
  [5539398800945140400885630259852156945948214258909068439377607933000, 233997904269843567429855767753571041608638168897451733217735662300, 3569189332756404796223457277907095693575109197036111953380701411000],
  [2872191767935580000074362667687857496813994091546184979726680714000, 5127918871534896037851605546786291413692596397179587124763356702000, 339996700102738123867210272269924212480144371358164513886306677300],
  [4138121966047382077875800750568779846893590132158301678828856415000, 1040228124704250249187029074530190940840209575159765369978506827000, 3408830898192074312420100546328112996855285392699226093377114361000],
  [3819468455946183880443119317834573853548176863013478807468394928000, 1163792737922747840279328040406238033562607832846371904497336818000, 1271646315845564720621109431394621543379488292297097459551073781000],
  [3750863808776789365028241653496529911097226641373218138302308933000, 454372275415200537433484651788015784440935206183019283255035646500, 3343301609622336345488361747000748787109267518840310628685346815000],
  [1016910315982372671688566628669556203310793442214620426683988241000, 6368273194822887985866133251988069765622286716226157161346611743000, 1334261669051737465539106935766715986646461609463197092070098797000],
  [5703115650309976201680412066474791436781033815481094201535685007000, 1243379524605142599506882643780879611794481824405790852717843788000, 2073338203620642159258777525462331820984826199569194997655752993000],
  [546182226546312474106304338049697796103681412466563415875126426900, 2030810741420467202048534374671623416357878698050120575098637621000, 5042548871574086892343235679717432359838040204313801295104446286000],
  [6736596305732192697666181711551935667576629663561273487208295440000, 145564941115726150971651911160976666556203998912316597984849979200, 1513207891612286560300890460969870528888591168199431294194761093000],
  [2442781869074342661371961467695188557478656955214993686132831380000, 3849304006982516244052877561996382361990446338675805594143510029000, 2175603967406178856760465021244615800621544645084696659066072385000],
  [3822600533535676722427506460002869630897473310980461930262655798000, 2176161172526403156330528969859236565922024322315692488682470277000, 692215701100971673349849726885121997759484589877312643157275090200],
  [3647211003164685434924803753390206335356240167116089581721195653000, 3587379389603842752930137095663756080358614702921077957652805511000, 2663359973568604025723154608334023930940387858896716922015277510000],
  [588785938466796871673792409912584560403522457955323428920322030300, 80729927119703637523299691912570538376590018285296088861448530830, 3923883933600481130098876247274929983753807878228216058663763628000],
  [94340755320472315208043740239808660120388425641689968225455624520, 728497599850277617572798651281020258444143493326809199206716926100, 3670474118293337009003678148019682698041095613108950949588149697000],
  [3666912553934710950299646390100680325223552605164118865555133496000, 51047609711273898428384949778314225870827918392705823047180508740, 3840670119339249971993099696480071900088607246423356858627181727000],
  [7730453640243989236848404678530886931599641244572157128675576272000, 108857112122580654308561948321998550549168762415333553612387019000, 721414248667906888026621597338910358863475839720109359963445152900],
  [3743276639452759798586282739265638757149969986306016527993254318000, 691142698317798677596131168533270534469743039084396985983206463100, 113064040833522815113464555290889343891821893095338646970856099700],
  [1242372500355299611940516059672974915968519893356589614353303133000, 1395971448924533410216808223325979666706709237091420457735761764000, 2629738810719239607252074670798562286270000828268144022824546739000],
  [4474960639685789621045580367793933865174703394512187903370254226000, 1431429401260028051888106542040971794090773874740360222507585806000, 2414817759493239937928437591098174290929889788560700417530158492000],
  [2778828720860007798154440533819251149928988692419062813950073209000, 1170489945437161914670101743882361178812906504532096839306554217000, 3975950085479843526680294530486227893047743675953416231038194771000],
  [673205052218727508031761132939755027771927462632661392438721859000, 804533863704761027374928594215226688178524358038102904298673979700, 2142373855718151540024609125984137919837403300833279609266309222000],
  [3612642176578033820581433389000925149434388365217197195306676481000, 450410721485244889279003006894755309059493468112194164853149954100, 2182269217766062249550682601030678724896173200207148160040106374000],
  [48923895017002181044255518515921977813503805771686354238321340150, 3890383170083868372055710772159889187854729269242493123400807757000, 5964083450904423123049735738222478789558676181246003149740524264000],
  [5990162072243106868627384592369704915495957344278319335687443660000, 116007387341997896337959873049289117883020781464293686918230182200, 1231715379035730615851985791854666539069860092689214993778129467000],
  [1429467257461913879402572934867737228849056721080472902989321361000, 1629707588490883202172319919606658099493675584795708378641698428000, 79065632604072702887506966859746245521900674327238618042104779690],
  [1526824663698871300328424092493095846039972390012768694972465314000, 3025156519349789805416904034869054789485562024568036002545131631000, 4838168038682168610328090567708147779775443869128706623867044552000],
  [6170695055583639707708556878328888446699755643843692068797231433000, 2285979263351907743101382127237334528483973728090671258929472911000, 509100248161712934299202417942675872181819846281110210817549055100],
  [1157449164393855290073803635712304629119285134691565007610225288000, 3940017539702470104595314446617639334154011549696860112726326404000, 3854677865819185951764011075335024014019882432425194057905609758000],
  [1367254240223778830875285985445128178385716845983781670302503629000, 2719800738322982362140441233196842267531755258250056684229811123000, 1924300175801547244564241781200923803635319577529234493513372711000],
  [3469739325581284055814389685032702292578620079946739762052038606000, 305551675969360878027306664652913990261228460973632967802806283900, 1234971976160299090812257867790909446076477712950797908782607176000],
  [311163339205548976891251018334485446906913727469449491581351834300, 1491021737723402298243222000182701964183835401494050757308756234000, 6610734242894145151793354838583884278878845904050838597864726908000],
  [372981126562678391436914322498339649190815838890063382493464083700, 4786595870791660086042921718195969290174010756374894237868157484000, 3680214681432501243002936359199540214320191215740250601679493661000],
  [116027554983502112392449531018767579144845025029379662887415097500, 85611730251777845135508810913410238712430393382004812586877091410, 6209765799338847082914031659955610246259627390549364311629777563000],
  [2770263433531341940323741844663124149775432997596910510492155221000, 6447959444788540999029519802453772914569346377634943385044255141000, 675420182628345265946967327954971019472673389290688282272351242700],
  [1837868277798009563291591823795700297117993758475087669016994385000, 987244351466775198519493279850642467397991121338519218817256800000, 1943404713317379869693321816505047279272372063287808020898470781000],
  [2202970578613748420797868009630064178305649987712233690678143686000, 2125499661778209825875192314251207740058311243117827385382845494000, 3312019568148393766638912501876153766855789753287582282470627221000],
  [2248606548150579910505814769887331754807423488635109372909728093000, 1893922778525718088322221008942633785825605670458287373430282595000, 1169350095862368326616204216755069910730440292197517150088631990000],
  [2596704607167642721940579213495485595883078189090615986602343854000, 123194336138793528010532027049697976523404224790443029634680939500, 4943330603323840914226520462280409070390557156261718051880360903000],
  [41606541046647524037683830224261893310755417724669494508077329160, 9215322702145175050055009078440153391675949443482530369319850057000, 645385721895014930223223327016606303911740649059144348525127208900],
  [601208421552628006045162082010745950060779208174638943808511903300, 4029199182157937607893335320617493403391811146884849951564525472000, 1141603266018256707210732738581970671676124050145307859094795741000],
  [6818843348975056599303279583896318337567678062592917098825057504000, 1634903848905491295114727271077405414207071642529500390464345572000, 1537628492993982332890595491373084927331284094862189159005159422000],
  [1056103192557230138584287754813588317628542484189368967259734763000, 4829272887521248563950907004597351322915323991147992347371369231000, 515705892509488029593314811850513407420412146952548200349095025100],
  [1576872469770223540351583722473407526569190624819888970547327357000, 2107732304361199226118842550150916801302143232760396768752221777000, 498558761565072985945570978184046159434243863900083771737198037800],
  [5482209655107836063277823439475540669017446781127998438407030439000, 1911779599681637930011160304867227239041801900822964024233206078000, 95584253964483846668625066152096728808566994133245542147203829580],
  [60517075298023695259498588069319444390317171153090769011490218760, 3456488384052450317171337695062763780844116635832825573651926129000, 3376748415048600739949637199848944426451793169483710191907911912000],
  [1908392469729430403385426836929818800040879794769142815846558728000, 4002619959602171822486851792576597236686288315372551203908085773000, 77909484305903972209957566539608213420417432021822481708328766530],
  [407526066372903506811648617770357392822055767534585766779435076700, 3964701677681301697561732641553855761549161048125037435396601713000, 402729336129394503673332317470314643701531430169090783616547583200],
  [365737067195393004207722014426813646653439529611783924807680284500, 480307787929412275035638643180113320553263401918471813746143609200, 4970871763237189535035016530306603409357392875320094484954414699000],
  [95282946837392133060307897611887167956874773795251015651368227620, 3985677467704367737721876253795610721801110468070044161882819526000, 4157547475379142961443768617040597357104451535766256251331724572000],
  [634758330467887389699157999745000552806090322342371749177332139200, 2706766372988705210318708567573401665210478541065746004298122779000, 148245680420417930806755242258424916012716747400498613201569091100],
  [2097445807970317585883345471888303852519399361376997165803554609000, 3193655958301392889113663132365116529450131533077558594454962101000, 3384395061678875865401596986367011897509118576957047612464425055000],
  [598480413759104231497546910122729701003544567686553231451331715500, 3551848793481822292315701604771507692385015298705311111718718896000, 5323615180999668183140332513905930249952313499719494634206697298000],
  [84977364584307197853038098341669924362077042494412260572471278820, 5221429054311363312442163462021602599355537010983432322116751583000, 1464306046026039640024462668604133638007185109585558472135315700000],
  [3890381012313203735056995136560582302978399315149846242426056500000, 2982387697165016860680064054472194504162195831325243437688489458000, 1275074594853796707673623677704971055497860812093614568319441179000],
  [1083451155970357917151379900122733480597079980293271711187294977000, 2174733606252993467408879406165302793762831373754514113332728421000, 3436932145087708338745408092722840942557614942246844634489227306000],
  [2247795259876792422968190445498664070347898739807944262644162101000, 1974672641139710784481465006864244491956953808630336087400930227000, 4565869196058689658085042452866481157420359535337540501015081213000],
  [2854391047841085567147525583873335516739589809991336813078071111000, 8434144131366115531096549919832585346984392768370680817446666011, 1012402954506772259991197693149683597297358185253641537827599498000],
  [6164863166312418682065669036504740834680922266478636466244025934000, 458149128290757926321284743778554272937163719174946787125850559800, 2348004929828133583141795964814160533504184392321732030397853755000],
  [2861261841986337493082591639934366233471670291639803375649540772000, 3027807935820711120222014715640506418394800975943408591079676902000, 3558476318633236592253431742850628206189307701451783660193620486000],
  [691653460328426640713113640721820923526883035312383704521273557600, 3906257499302909244930828271244495504995021171824936804902803409000, 2101236821405616315664856831506614371888681103923812146439333298000],
  [73226476658762816006042809238917238011877553414683642044671683650, 4056544734465316437003360317164286920525274472480327897443396669000, 5079560828718447975659416809075949410642862786693173872782584721000],
  [5149482404379074204621495493195979555147393617730378571423316000000, 3098052794021530221430286802195379292250142597413058455318785564000, 1718126814694822213579578388739403423481649918469985922267855471000],
  [1667638387615530426166455531894094463471088990780798744970731933000, 1151071190537566603837506266407401756459504700195363498889037955000, 3783357788437605744276190769736828094770996200877617103201724622000],
  [378195671709146789999267068452314376655132259646049197547569011600, 4564127103943539216576485631302056853951661830881847684257852385000, 4997547824479509810781045853537988368017399873587599689515478108000],
  [3092370946604168081670941475230935261952780313575010692769214178000, 6712325166561010143897660685766718272741523977566527960703138615000, 148232481019912527339945406127207507769317137409691793815184991800],
  [2274267025448595851327220295824844173685804991303501368775772186000, 3698296586628089380413858432105418547412724447687252739021107826000, 3930220152089306655037819262071081639828939583912176322857062195000],
  [123374688424869852426201690632312884454843467086434200357292647800, 78152204505516049794704406614820469134304847778481334269196122610, 7607693676106550534832047145918073449654539801141441469376954988000],
  [8887038653497185098367691405479834768156505589198350371368987923, 1709587043523863162838603121491819374159939311695641493965676681000, 6365580652799449415284507771202171828408266756279988256682419392000],
  [3439784829909684578985583289121345098141078586004626609722558328000, 3577907191352539745239920080642681073203641958652460380674338856000, 476191527829643264282774657868277075239421875678455561495388703500],
  [4809839259360869658719535826569018458063923949776541508497102845000, 67450013518019760239741002769067151165998340185376009799088957210, 4534754016632329894112321530223479907003480830393303896413666115000],
  [4675547114714950739339274207548917432247181857003586042351590275000, 82108151031443321134391465012211700690329065463584862903219153420, 3673913886377485529432776330221021733377168270578200147546901559000],
  [7627867014244264449326855877951285382143648837357235045572043741000, 1725373652941705288381014781032423113127061258496428571957177330000, 107649090068482142565469243439311830796457987150268992502384144600],
  [564873155167431129352187588959995094961093774388493997220257480400, 73089083628175717068027664917395961458482666546285696349959854430, 5674506786142166636303860057800970307625339164022903967716373743000],
  [1159122470315714936281820848967452174499780214911463650625175007000, 5778538593912987384961688060392277817107847413983175344112281525000, 2373340510660815205754757253789684758173931505956482405589176748000],
  [1464175980944511477403557115080818659864902507361655488598068611000, 64066077888960624940697891274850242612725090935980274691073539600, 5781407150858946403256126760458545000173059514731849740778477028000],
  [397200969200983156734811217041874083916894097751157519348374214300, 1707545494254464264375593496444076396963917825316313650132857521000, 1854729089531094709561820254626249725655386187239333141606099449000],
  [807602789658079458070066342115619577209679243312627176075339655500, 6781163031864639935481196406253197191771843111986522207603876961000, 2309457622920834913520210702709953793603872894301968170509902571000],
  [6921739849019276308654218757656030082261118726715102203690716006000, 1471260763384878105982010748034797227129080156385394406095638038000, 1021857230826886879468029342685723947451334905547419477477163048000],
  [4796302148308850789183913273804375857597465261412428980516038427000, 1971439481341879663212543272405427617479737282910811690444606130000, 2664619914088485050078524697196993997426687935351045472251126478000],
  [380509317563419720768442855424308325903353050288298248586321409300, 2858552580841950847745773242929516782643208116001208487547630630000, 3340981474659707831038392213658442266824436558990285695606694820000],
  [722903637808212541554515846287821927318482658058944010233956351800, 4523762660209876715931186742347679384968642661607137448082647768000, 37585984739270216446231967452827775184143194757923042090298690430],
  [361199440152827816800831016981094047448773653059113867457652300600, 772387120084854227954934733562851068045478709172440407850746083200, 386453185291637951838475920087892114373008197798701878884492518300],
  [5889747438161144209057813502856904974710184712662405759366590628000, 2351055489290995303006495093875084762759339795607078286075178049000, 1435495916810519400995729243726039592318870882405255349207635127000],
  [6275091561838315822249592845292468846037565360750875591999525851000, 1270541304624834789628236029867942806900985638253618393029089108000, 2143735820518296369238849447392102704194741779255663659863784847000],
  [6674636161281221395799062936845955090830952133767703461778562280000, 383790300760673098683501669042798538834932027479919494206527894700, 501597054079292565957635697607753201483580423142748917158312851300],
  [4669151255195071622645887330243035846791652349595900689458541096000, 2311252322741572784191481320343977700462242703074762331697737306000, 1933074982705743736756018258044489472765624137875247742220705372000],
  [1136342767657953409983323428825858783108193225306414154494301872000, 1099583127406723187034510907782686728684637767639789724189568594000, 6547676968021143682353853745706780411627904504530510656984452956000],
  [4568457360454622496830618036134058442017129139388412771939870385000, 3592551606452130617793781613456200882785546903596851540631987861000, 523711527062788049569626869706497939606618414714356088702718843200],
  [1490577634555968150269461117296651656026806223637571096644558973000, 7987978211839123356621429827560909055410112849084300647986659486000, 465294927336426549769254677729905296907865835078346548363750655800],
  [708439834399170299290289970661150862606306979365636616813337413600, 1097889320203848878117295565911361537712018396176789323814811802000, 4562715490190579161110363839109799827532672069141815388531107524000],
  [8170412844109655470852069263520976214592718854498844987532668758000, 113448981488136454001312247567365561279048993829809280705790691300, 1583644376029456025269140631551700827440921054904900638446995378000],
  [5142553342053729580285715958044330392709709233314545064789433601000, 4055773847497423476791948604464265940697999013762906184060577153000, 105160326551834667307086563867398404006366818607806362064521711200],
  [5941055137947341661904314896981670400378595862306263707431269425000, 81591031791237061750369825657399664882460720554137680240014628680, 2576006367373720440725471235523834989050654356799410666992601687000],
  [165119533775876477437164763417225218140728213904505508219422516800, 8108291666464255573422682273760458197990601415586440892006795629000, 105318135037602959752650227139716579240061476959233788842807421100],
  [1334155114834045160064530020017172899610021390356646764194027997000, 487742949370067188846064626176720239655938680444198266213890220100, 5069494873079652976294713625270966211693117530445085320177121887000],
  [100615300825775722541703161382768382834997789172745868228539067600, 2214855975176216004758885022029271051747812755860742600778254266000, 7635447829266803874800776731440187081239968740965211072245860094000],
  [1430630403543728743629319599059224219672314911101121761662108258000, 462263681214339082349824363910179724688946340512856876226527309000, 2261157481207355262241397983871248815714035888385050000613880987000],
  [2208338384631852827577259013301913354578360881963852164395996320000, 3242736950476317147327562247294852983682767791227224871609325402000, 2052481609286995193664638652534123013120892799700052096406883387000],
  [3277371163225625446950549126733472467269505774977971344463448649000, 408329041232931624346901977650058131788828342163878312258248573200, 4878416497637716563630315537068604044877650280199866276744174892000],
  [103137083703616670827830506288653592838438074698880122937031668900, 5006162000270808412305514227218021364096498905741070333572431284000, 2601393077737637439609445208059498995818105828921877338180309732000],
  [1507969957406616882227727797546213341964209317949387697469286093000, 6743937246091745078811472426447163374921796196431013582558484220000, 1304642017317093014240089521020967694243907757378890880658790376000],
  [3272882545686135438910690043671725190911664767621072096073911247000, 94966552499702996508915646519842381220080397514840096356681606510, 2965888133519640798241243254327362052627813883957792334700694466000],
  [2632513134234530875822977957228213021362025040017195234462956648000, 973960686602740814137355475787308437214432568900547053417443979900, 1886161090573033662571809095953652089159522158188179346639928864000],
  [5137788464193817967236418254628794899255118259940269664539848818000, 2788279089166380691841363231827606047781943721534914943182046630000, 1130838225318632645061788371132056888090127441110757481731756316000],
  [1214723822991945224387222379251225844365540127706140754747854597000, 2730992336393622578533126308911366505021934794323280748883210580000, 4185889524227676923589431269446382719444200514868648109293204455000],
  [2052672373061645016605775878055419898095475061744446308413475649000, 336311498267379780299054317557401992279893859511190144144779449300, 1166467690530874624984543355962791837810468445776659391649689962000],
  [75442764457897901519789099701963343279360595700528051929465088710, 435241063920940826494785988229533038810248346125781250736561960100, 9102071244102442306542022500214134466666651294595324320687867176000],
  [5073684938836504856260818317163579635122874935048786324300374896000, 2055874095741024363284068043061193846318963263074548741643099047000, 2772639392358733843023104078105458481582489450913593634892214750000],
  [1386766865309443218262224804038224556270531942302618055681010903000, 4915423548976412193055015547998241785184190040694658933865043234000, 1713516035584197873371087420320458836070717911962868290091352592000],
  [2046056261918312616502149752563834428389562743143395043563288854000, 4425008806165124224845417539972132618589138399846248055369354542000, 460532497955944498539570836372133992886775650578999520300144027900],
  [1439773243312637229104977114412960700986610812471863222349393840000, 998897406641299336636961506267056034869333474292686621641890274400, 1155651138948580955167980275732001308895117485620466748706644771000],
  [4726467262261385077311170226867327211108531067303765619065942690000, 1647876496109767128873091359013778605564459949300077082976881649000, 1377891468355157066547583453490427008330641737670868569011546548000],
  [4893349306128652395385465457283877456064091388305757201044358404000, 401178444850429589565086804941377570289559377857234491341663642900, 1150384384045977247295091236274246967771490444066260434454967162000],
  [1239356880633019241318199720046390019050135922221426813348651340000, 5195738380885110333949830364561796207324914903346381416922791618000, 3495089053595251203198969292242868414568176211429897405570055280000],
  [2355567829855806937016977597067061645068030700810620950324302321000, 530539019942288661743085524163606382357269371890726925926150528800, 6343922684654064871473978500513946456543618303961551081864355784000],
  [1143441172456508650876804094792885797072248700449858679721713359000, 567869021609267698722284759089537100150521693891622371977806876400, 3605929038932779672019220479307747571259146233996065596571186301000],
  [547527174742942777492247550243450894261441735653129693646531670100, 3387302116200136361389032924098153238043352285570450357716590188000, 4767983776312641043813602388564900854414981153527484018133878525000],
  [1631696828250109462700013818729020101506589466007816231904721807000, 398299070361558396588158289591158048842695577212026069148847575700, 7663246234959557414163833338944488011466505439154049072832277818000],
  [577155444987787498660369781705495488971715493986079938323910008400, 2512096550143683093196579604295732915521567036525970326233224698000, 2387613854393196140119598653719799155490425851647596776009480318000],
  [841714635592468688110310492973058042360425012654754784266967918000, 8182476101555327324826557976095332519484351902155074101469895169000, 552345927390342257587890487252662076910942817405233839009214018800],
  [5076718937835470258723830600579951717363649834284602431303053258000, 901192501579721330314544795182294276186166837543436908015473974700, 3419512636889052794772572235466153593040303090208708973559848307000],
  [3264460638947224052171795895027887101409855158683271469847279720000, 1084566324697749810813992253801227737484687084442926038403727332000, 4666322968555324080207725217934507053883109193438794845729670988000],
  [1073777100033773039865216956070818387789292457306870870693686054000, 34736521307894459629646306740923480338481352058600520610922236500, 7579078272848553246235300824829030168070253344194263885484730695000],
  [229998426228156455973808103638776114321536390216828067057418160800, 1881679329336693070976286007190250225380775756781909006043307291000, 544765618183202980933338190219062794985865808256490440318206362900],
  [1772369956717510481701484547144759482883919868775165770160108201000, 5619442967972065751719611055530196620143218824346932013716469498000, 669691921530730823610950152611727606281563680609858383645655417500],
  [1085728099430210083933660422053559931604782912121610932074296132000, 894697235263217733376289252402234569636794216656573293924910391300, 7623717880729585611792846424017645674454607867277663172923200938000],
  [3615037289787641034560582010172952714464564666025783476076173141000, 4660061709376554020467306297274037288225274034912109359822009644000, 472903923811330000193768658477141019408984358626384848325385564900],
  [4223835418693319465194808969367678657442150693612787926658025159000, 2967267764228133643541854503558991038728877260008393342269401840000, 2423290849389467825117574369015654759689642138568558985253773921000],
  [258252464180100279576905815980177224475214937476765544425819610800, 3741297942623531184822979895609752891265878750441106741981178141000, 17216018523667216451504518706766179010728614863596291954915857050],
  [2712389433439547110712660250163595087032066326683677603186370242000, 5535237991995571254608492072132470126454241417879370369791901084000, 1395124277548756137733909153570525664429550170674829059059546790000],
  [407531525129744703789220406435720968541716911576390301497543745300, 5083066212515908755882044436985343688349013925283049388248141159000, 942569405973958478921896074310181913617814136612544565280620623800],
  [403215530151570319287160271694132080104281388571830052016451664800, 496571298637859432429002132980385568269518986044324538526826128300, 8518054826722888401433522105530926278209507227409550715047247634000],
  [4228847257063539948046194359106349331971700880895942613949727555000, 1936583675016742699033108687095192107107597971621589269529399698000, 288591001670312021602347020586827720260647542457463740295002188800],
  [6944311938354575477041162535462688431634064816445960980261537430000, 665367135124212923210958816208881473364750680601932027485319763300, 1348110124639189772154596231375235955360514516571683658796809803000],
  [19995699232744273974968998328023513606214194195662024005919994150, 485103716391242256475824956097781790013765504820529164217927251700, 5446912706177734743259126024957720837967892006544299142349439603000],
  [462793690264448149801860723211931367544200394672481971131489627300, 8791318419467080660979615218709626572157109838668508619167982318000, 106998307327170847011067476940880071908285595514320043695444230100],
  [6968532354635156088595408746302156327140534236916302113173709800000, 20370340389885593961075037488342730996323706384167251748166877500, 434788507288779474195744466323990643883308051446261214414392912800],
  [7742896510638277764369894700402108410346876651491423189942459316000, 581462758248451918322686326630122322624755803090216937255874671100, 107519785309271545900094246442223459639203526998915901733189668200],
  [22024633307153643049802609415078659341518763179734981809378214530, 521391002056374617032929242132902463416938229542928016140884036900, 283255404021582978997906720203523053133374331502111356112982748800],
  [4125834777024173963005922400443012379407150836794194702813933295000, 132691411911305483331199925718566172234256713099417187418286268100, 573122832302686834319216241239112355636622615179072788391858897900],
  [2376809845348342609230060477361749432284090819138680180682015882000, 2975978030103459691107186519626108373820288886544292962130875396000, 530294988617444914553512031294735096336542929382260264498150572900],
  [8560405320015600125099656639068848108974631546376642350649818492000, 559624535706557931114116014720605997061661537130362447296712603700, 469780505646568124015983073585198871953718409892441736192810518800],
  [909371969646182116398521790634871804445170912437466844035096222700, 25695870793165770542917284958150022219120399226933702741822126550, 742468568359079980488054462946653232512562462058879072449626686000],
  [2084600791804546118442184027224572114772719358663926043151456388000, 6634742782532601086475788198048403125538482758034725493796171028000, 104698782371781331172844375227132110678907109982074939513200559400]],
  [41549198045280429310627204839682004879698401378802783651284163070,
  23921731953202485500550194109580929044437346244329779665695355460,
  22182258398445259912056317249831060202165284771642798397650568090,
  18897909439010670538412053409188734583188301317392284860677429060,
  31098572180345634465229944366893123552811360310898231491846642600,
  29761890433530848900131421770394264592029238987000126029014273850,
  11581449081229071709930507942342846998209995116124035256506895110,
  26730498717703480524275601826732891807612109069408955568567935480,
  41831392793537617290329398814725747082866756105364149631622654160,
  15111189953265056022211243100862905324210586923247863881324871290,
  15891120218128446704510478546718223009654756019542771505289734060,
  5625398817293103709910776374529075599854743542832063789804288118,
  16174775562464848081918799255693686967735090707080611906661390160,
  18065459403634367341796414569939974031620156334309618843954653980,
  51514222365209989017019632454659422326518321617007109543627193040,
  26816267932386554681582223465444607278840457846969283272965862220,
  13116455877127770967222951941306624428463324704612569710409897720,
  8496036520287252912697804608419417712985685397283241284871506465,
  15302425882235293445655465292331290982310044802344613233583645010,
  23793885095089126169871086824973206791942113385486722760373962320,
  16776877312641202016973268962586462414473051524593928190654786430,
  59823991985310616243447391536565933738886554819024658352089060350,
  4323750475775456633640382455885141659316966971118717313368977401,
  13435746992295855367697265638240220980118638798705370655671925790,
  46917254158593719709406433944657546503272222335880087696452655290,
  18319378876890099039301325684181525715359610852017121001103514630,
  12393660005279905509506793799483374347221698864759716872159699600,
  11216054302706704795846836452205846688921785102879455109976802370,
  12476575935328152400068036719163516626943550367990201821638332440,
  3063272220541228645058945672831110060889653083890067151924359655,
  23878059660793710577729422647303593648182141898285549706368441930,
  10570656534055064393520282835270715908377204953348460911523943640,
  2518387932000269295208409709013959647802081939275581482160263747,
  12931339485750021053700884932239100400161311355720760460886547830,
  5408176005024798819380401961531208915784978932175433723998411100,
  1773025528700091089855113433226028877070406655336310161375179891,
  50779442524314794264084823046962046119626309066372475047419902070,
  4513612774712552521556195092440891602604084140059995616570488001,
  47880778360250015698244018957597532116889426853373093286353629210,
  6444580077492345925751970243103942116252295453415954623867304375,
  37230360851863825866017240024358860198867310005804199072409275320,
  38729985841274311557663576428621039857939378872360392448619863540,
  46441865877251216106812092420354766539163505646912863613240870810,
  17390808792222536654686391913858729087103456638371574564418668620,
  13406427789751861740326040761128542094953846562788943830782159810,
  23442133671992904469392488844541771733552516082680575782107395200,
  18248286012343472540686498323589271635961446141837868796944581000,
  45078787859619347881077091339244231560832088208696744718537949180,
  27305663589516061001855753991352524991990841693450378029671540430,
  4777121283297146391273704277407973393908850422205446350696721468,
  1627249397208698775809703054010244741029119901666262737573016663,
  60284911763765664900330212444558673227217266339311700503280008620,
  13203457071647263675311814416330844623416102767526026759200958260,
  2705353208381917607068074228118935872223733877402684408657921566,
  9315670277609773137791512353843073507112757283974981416973642058,
  44014609987103110399238678408944738410206052776174536821726955820,
  20542495933221501418731881107061173454427205716887212191917340760,
  32968037916431816181126822778436138728683063966797526778322682600,
  19537802049333966364727236442855310112220918685554637250680006190,
  9588825003287664413801156894305616691436396419073408657656697990,
  14008888045849548612285020427043702900211696346807449596994272520,
  8276650521429633723374944968172878847075662054910184130825900893,
  46442976767788741409000817360550141918733474150554073242571782600,
  26130222364836671550892864708794822261440480505286151644604226360,
  37286409842322880375131319315711308199139318892511977470448944810,
  7212847787317560640646027222979203736111591630764635549415144109,
  9446424834421033563088280426958377298913334048437017803331461635,
  43785735730933883315620667541632560829142559266030678232031542690,
  11547317411867708885476511697803484295944980588095171653576588890,
  39170905880404027021979608977084799011464623537916562696129393170,
  75465214741229154722480608173720453496338928555524443547367596530,
  22128388953414994944441707543685987286326605380302920462678770630,
  3443622370410026760702620761379865678546943662845249692559282175,
  71262601584027051209893571945172827210936554317984204716839415960,
  9179568401603836072482767519498456700065649650437819965829802235,
  4420604554268965965300932577475767748986695184534815975954051452,
  15007313244155079210173412442440059782720254085756386079792226170,
  6579965759751037209546676595874492435332759452026562137136456604,
  29366072689962339746701944305421820580727754809073839911547410380,
  4321181597474436535951322476711014280726736069739742223573973885,
  4897259038480388235410402901757361799543373873457488017499665631,
  20266867416327945198839813552725996395246107380130616225343295410,
  25358663223950840236770125004014758222281693816246154156180316730,
  20713528336994247745034137681895648902565703074697018394263588130,
  11435522520463314592662494778926795849864532085780033708578772700,
  2955791779726857465342348395345548228337937954724664210768645566,
  10643033097859979538037570407523208157954726794582867109100333350,
  24593932250847515768191010504208976816392754969204667943238271100,
  4591831081145950566850443386468876054442606179825088674176462996,
  22659123129580775688415604096411909957279295281535410391939667570,
  10784261091902800458385461786885794175460845922456860834537606750,
  22110611463584372225752453624582514951942795717331107704453776180,
  11872048788209687527592951643490550374230869745530349155050007040,
  6089351711723383782251081623250478871657492346636112214866289449,
  9085123534772494667113854978673003283493934778584059796202684212,
  3606911422997412440095838996313362243294590254897086855659721314,
  10250128850995745648037703721437172773490290267715937462562362010,
  41395721573252856308621395408496042019712945874323699008520277260,
  47749030229231297585056614024853352788146668032604749023755692180,
  8995742994173481881445968188121735138867876746682986006630237706,
  6394018623193146851677450869283715243006134131963829399222763528,
  31620976608999697692078005425603461021554893230752489322386113750,
  4565958900106349216008414496780191233177663988898585441374415682,
  7719023958373823260345071170085984762798607475095130940448234650,
  55521090745928752965948227648700790115612718255014824382765710720,
  2874122932779832543692169617848252167495540217155628693889041805,
  8187214549321791844792125471414830305780759063321225370679860703,
  47956594947458951465779773556653050561656341662795276762957921310,
  10234424792774555463158255899318513387149448063232950852680049410,
  3819794130155829306082721915222294875810249639983497269108069199,
  48209931440501715147334956800602107820410158198208323592316428560,
  12899685835994250914849147861586109150265007352964484617433829930,
  14595760491066011703348608408489390173642318134945626575276134490,
  18844067687588617755700727472177724026278788315399109849002747720,
  20247416189657442195063361112013274061668272573966307519255723400,
  21606460320061077044176869378029981853779550318994742303425860670,
  9912561963656035891021056862522184893744184276964639651430152242,
  3876575612968030193332038895282889946025247019681236746316272954,
  73585011771968319028123779898316492060304077250085277407949407970,
  30765558205356710544029225094551693066458767873072603064336718890,
  16170759479231602031255832530337224620002819131865211800112586190,
  18063384525976401463794249047504474055538736729899822536460114470,
  4561404191999593801304178911612242497319783431255041757625908490,
  25934229848104265619064927896216664041815080029566012919898240140,
  8134013797783510247317113491493744928780672435256350689993475470,
  21405657172592382986567419391687807595727999555499263118108797680,
  21590336925146215457457954976546345962791934958431305163011684820,
  18250865650619013056489043088010268661251508059589217996111187000,
  16075785059363100867623949114434886299637118987536432162800857730,
  37262743948809482999185852451220507533939255088258289185800862000,
  18773476688017283967136513816967950940850455465779881479464344180,
  23773542274710399064264187459090034333039120246292892997480698440,
  7800748143043201213763864603054015902848934511966352543831440506,
  8625159302928536084426941444516464605926577330193278703844923740,
  19512596830676561926914780239545350186014574213432178413808219620,
  7951884447743055813251416717581239111699645705442024177179523163,
  31379721266053376196455288354278526859804029601931484148429533970,
  42410780109442597404505506217382853044515408038488668397749137280,
  62578513961764735373243216571990111972106403558851573945530019180,
  4079094863016746394531088700923854010320246816087832392146581090,
  18744076410811924400187637212561225648989997126554562847938818380,
  5533644193207775378007990149027021596864890501772428632733495131,
  12320817884147621828955182513468260759589831829138722947844712860,
  38896467999089423862702400938850607571897385001367066854872892130,
  22278484695882514610719006373290858222393794796699151642223951930,
  11797813641894402553695707834933851836429347298774487348323979090,
  30049539707875208721078593798277150464870744699327063406738090210,
  12411158101153054534771715003214692225401679567399885016643021950,
  14622196536199878302708552836514881765434790964038373743689068580,
  9272319924537519430881659997589846793666067484398554276841720522,
  11959973430921155023717370395212535811573601148434029548452565510,
  14551812890960828181097396594125838818813829422287548901795450570,
  20173457505847542142243115383959498749698625285817416455762921110,
  8228000166966678775535713289736681335996462623884995014056610964,
  18871358858450975943985064422101519775190912300178179995076116580,
  59765129360938314025508641508745683927981597874183018018768185820,
  16184204312457930552679512542079901293300696077913370003892920450,
  4728734480327994042669864347125679013637181771111811337780926883,
  2499249268523169637361878108624248036939042928142291756701283293,
  17266226101814630377825047932328603314089389484850358933844623650,
  13207841686729464081565276636801129976901060917683451914959637730,
  62889848281675094830804450935769146873293646812152907464049694940,
  6722827918496559291789307802966046037847586506568653933073703274,
  6643195899892695533485636623542669921122324896184609743665250997,
  6828729129371707787671843147475412209643688287582839656886509878,
  21081634952079632988897743104741241068473110122961357996508980000,
  13427562459623794281044052592594417910514458157972930986516143930,
  1663187041064373045867841828276563685556530165862188180667708780,
  48574555169474020811891177898621498822936324805933679543262050490,
  21341550204589106782443765608225522555606306732353991108628170050,
  25435916924983505836958011754318371962722243999083469877041621280,
  5747349422849558877312071985320901621126074777063627505398527939,
  4901855717909979088880349474282230153333432339363448956800646922,
  6709975800671327687089536382497538292205827740874585694722207683,
  7798603908971874655489547437698093889288969415547588905688481106,
  6317949829771508973716307756262681784275374922419771713700979731,
  30234617593867449450014930143946842278535960067290044686238488910,
  46011820309606397081755616057445648544288709103996358358378360510,
  14083884057591800506325795342113151708961620393691015492240906320,
  33967990959230005070292817835494087234520976627142420122118007280,
  14545360199934356579250877106001483547545337401032508664948176100,
  26968633558970976713584116877154033576978737018291359185981317320,
  43457090605922117910988427184185953336490766718832428312204063600,
  20169371030563512341770944533693847968017958467979968563277712460,
  5937702788718256932071108395817914099948438330257332670649884367,
  78485254919223088546497035913729024341642888139561876599168271100,
  22558315223130722793654935383269496345562881682720104575607922180,
  5556575558200083883977960061070337721553148458797844237671475428,
  15703387243602386420548792091921542141339788721026385571179750390,
  4264421590609781002156346200882636608603451542426990167631644153,
  28798180332488441890298685207156996916667224557659972501528672690,
  9348958792478718311707717462809152910549801382802863368301564012,
  12208911518965208186745181158600350797293244044641540338965367100,
  15725321649423134363766847428481006605601950166651665308361618210,
  16810506760224326437966060408403801638750713822785710192184296540,
  28035981457585904807818748063688795416253069790839389540954430620,
  33458071288088995141020265824242732351835981651237163244595057720,
  6814953379087848165957693052172072223182329614280702976865577319,
  13152699206964718337715404248683728726618371025477376046967274300,
  21972424559773716431828542785329611081562899056045527569038648210,
  11479236143085837817864461405053679855567258152227271005589865280,
  2460977228361580325994954788709652128470662511633030481836712308,
  10886902770344765250104468490629340672587920289514229355685629150,
  35364396375310999384148053156258950579658811984678384965591422650,
  23584128755717000917719224270779614759133122298597114235227042420,
  6765233895963418178751506758793945502674134662829346797143176353,
  2818860395815868003204021202128066736352457455138069139808159077,
  53368935548754680464978335921470506272284777892316480376733051910,
  36305850000531632680966002944454385149333703537372194675358671640,
  6113210446342206294093390523119602905911358888527735272475589232,
  25953616106700901134753874988726835614693610579840700061842816710,
  19401231635274872151926317935863038917380831063075051888514571270,
  4392323228579264216152457472005343233977472742582169065121683417,
  34460742647376312215431583123403645130318320033632429679435121780,
  55337098833695677972047852156242049440742975833343841167345310890,
  37578620454416092088574339883206911462643148853415050645235472040,
  78471740037464343440612914115083863432697884483446331111079302210,
  13444241258018486456394615269118713142421993593002798088073880080,
  24185333164795291619224893855835496356387095634880272395084460600,
  10157633232146138326673417036404214356987500682311082850433265300,
  16423948895918176432784859521318867655638111262380073698191323680,
  56200683742967185646540662165140973665086001547034956867768341540,
  8099158148062208984516891134771326649024742401510525262975025596,
  19657880688061150482761083585353320283594476806626956743542220540,
  72206620758427939488256798619579264357209239980591578409990386510,
  59786005885432097660211777516184400844635926899159569838152992920,
  75179462889477841218082141518341136234624512619018945573328691150,
  3126633045366422125092928855364285268660134350945688284375767199,
  42661892581874939898392337510092423331124429443787526129330766870,
  37731620664420442666849717284726890117557259558802368838326186010,
  6832803209215718148476087290214778727830566477896129880031465254,
  39135563135675045767452423138279315789233570085309648777024668050,
  14626545736580412711267797796829354694568135997093807070766547580,
  11659078418453494475088448441868956046633515227426607428307186630,
  6806150319894086704566955080197771507358483187202854377301125696,
  65076122933307059815832261627333949748878045274000898642071966120,
  9701729630164918199656692902330352711534529481483571458637719944,
  18994102701358925843142890598254549573556460989530155053533277250,
  3625332980975108466931737421772840434937292035637095991342383801,
  5306487266039331273200693896573116928142846840909972409209983841,
  25579915205063253807925258463739297383316107746905216672753673280,
  22978132301115802303533592280351634686941385271755036846433807830,
  26894684246317142447342246934264160413656905035719134025151551770,
  2872212484618766983043866509241807068638362291943539966170110803,
  32579666611946331089716365901956465826903928718395463121440948560,
  44718947143116720944152733100113811520765799801679594531452971070,
  12955922811731320107479516951202410822727115074106673164299072080,
  30887409221717439408189705309600603020516585627213818423050888160,
  18177301482189387879643575284841870863407309545026658639414197910,
  31733147991877931902161096121036999627623486424243266690514257500,
  51703009751983205956420854076166773529029290180361129169657544270,
  68514371901910559421782013140361940378104267116058589024653856170,
  55499732085357196004736837151417278736731414296072073358146234670,
  46167279404693583934887695852618956092790528392570406382337468560,
  48650297835612903523151547963690067160199211779735035365488620660,
  51754050342374033324771179718628613667767720617928290234705949690,
  20312594040683440411473179414034358645454436809475359780668515630,
  63887593361742793499417008163998264928175773988446813541977797200,
  51387424467762254015640010604303248350401666947586906986409596810,
  24651973871763486235048490737674532160939692992399276720808049890,
  11862997096826819346068381463739235706312899820926695284447675510,
  10414210579155952338531139900125879086902061570661398776061835830,
  13847769222568411960013934105380995798049453728057245576380252410,
  12385547882868613924921322010229998833085511159424675439134325180,
  17573336113047893186636997814643439211970582352169081669812060110,
  67240463857195113435231266474956320755418435609994494560388147240,
  53161944508591394820309897742168920557262206297547066558786913930,
  75194916336014857650681697053755087277040231485025353552784494610,
  41518361070752176006991707284859540934574339306607077634942558220,
  50390417937261967723738430228267302990860075678931597387982237810,
  3707251630658503089027110792133659816077692036817160801288977666,
  19914815066898043773812800501746060846900990506040041926415875010,
  15623662233946213554999420935869469665067803281163346441265902930,
  54734173069407479094406487850918336478356025375211098289958073190,
  28056290919230181978961227423066516899765166118957288880136270750,
  45881445761429824989975617682010044999357734548558504911152448960,
  73713281452749208920863033026512632389922402665253834138765726860,
  31953620275504463002411119488750847995042736078488904489232362160,
  29287346393949420046569368782987553199273470910605538692712685480,
  36207749418959541821719623556915935185259679979312972404779845040,
  5865316759656672123142030555629682122486538258022539475607025872,
  14949499713231951157362436438499967395359316213195315673914108140,
  36823179171722219785580106593261794904711774928619348031624489800,
  87951600803975656591293546741782462515576897406503095741754834270,
  76925543366964655940814075568040197370358193089978489085448664370,
  25548081486778446530898834747841094943992180361048386946642803910,
  1734209863891891796652927968690610756358295031318508581011409565,
  33980887705141908039697386523172085920317068117702663260672185710,
  8939744053831259313360402984308421771339819841510326257518340338,
  34189651884539456457221022297165810926171620110652665955665833240,
  47864161548597167505340773832538137217525424435312021048179330530,
  21970764001473876265057959303162866347437040863022047734455531860,
  18635667200753318397324048291227748138364304894498815492762914050,
  20933430582808215682151862202517670141485651461145412954895694800,
  28935370580282253884661219134035785129286215997824528089700284100,
  27710349667377310922382275368149180706108238969774557331999212700,
  21606170043871115950014447404436403192806720474889043873436089220,
  18386612684700626373985854890907167126085521868726275344613969640,
  75773665526579648749969659844883195393481889543578354135748342490,
  33685153810875207166146751177081411234618072737310546755486166420,
  18035892340695914013821919457125308918949000133430951817694313870,
  75240851907526834469934100503935261411354447332747587862527820900,
  78060430769857677357000117979304010160302025698303363195233779070,
  68561160970295004564756633707452814167417828180615503167881270160,
  8459643184168090947776021450555250575506699580910738473734964235,
  25167339425897485419786598271389571844487479611219902995145713030,
  61774884190646990185832503782789766608717531270250907647534124910,
  62697032492860992959124294807343274238951898139323702002097412320,
  12952108976938929287828989263773343756802636696836478020271868330,
  12627577815052641595936076365313333206261730605206542768524119830,
  65520031311713022482401723719295049813238732990195590126448083000,
  8096951338452611847542715949165690599143222932691057839834090017,
  4618621488298762242155290838827801848575189292574685039418746442,
  24367093129075416884337523944190812787356849430862375755385583820,
  4879204203801834185070596745401306260534666947149032634218291198,
  7467818230260785357467574272917099220940056802457844657363252266,
  55148174797406784333325927372552687778853872284909601582911148040,
  10545025514671443754984065371108830431029134176636991471647120710,
  15609923278731345488343326839808937744107043169619393880438115970,
  10555170329834777484039462816363232036320287684870609913067238130,
  10090031862737915612536749340950833178111535196973039370489760270,
  41713884442569490803657702819660228138097651708874578137725703430,
  15826960344313538722356218148364171198468550908793330711014494650,
  35192224556799636740827506806194648089598741969806798481488786530,
  15760018979580860199923006536999021306090975258475941167592737090,
  29565877897096239269439195041415214076606226267807514576971727830,
  41292963871735604243339638183906020388178055098374318180579923350,
  36510496987925574892646104572872998069568532519328951761932747390,
  10375024261646970901837715287824429949338700492713770247316686290,
  13537381134653169785595139730220007399099622788581212276082483120,
  40944279480519613600546735370867890855857119477786070606992574710,
  28942333610132374236685913245388882267369716472287454153283839160,
  26664547669990081965071212586053659790411625323639949986700399100,
  49660462165309618595137813580732975991181403271486573339821158060,
  43768981074645229432071640758128368143142862901989341740543924170,
  42033283256438390129867363828766194314857559961606101078103233150,
  6822600732125751849451755438727944898229669943695069900033080566,
  49622567815862052378202932259821428516079559626188426101792911820,
  6339545752075363721528142838372513868821779153604062507206462346,
  16485933697502229876867912010008920353936157145536332969265403480,
  15277244453164053957894878770305487013676863792993990520026214110,
  7390689179369703854690010410507407849744663143825281031780303486,
  47362468375594306936488770651833836453177456723875729895086345230,
  3299177331003762474980855748569032936388192663595501366241551367,
  37252880406653560384184431320862942743432256684106826368210938230,
  65725760946675147180683723616047364164034539690647767761119675550,
  42318148119566980294234075764980731206113364273009887826093838240,
  23452316814822862285913237786191165682079870597213942986001090870,
  35025399734029374297278714244271653563818802508499198788648590210,
  24109500711833839375498102465743093650647667788041801019627777740,
  49196527176192753619022739571665666730687418000322969982721283100,
  50258901338767444082452287609819228146481367160657937609528530830,
  69421929447100346994999799670810163627777002148970340523819032610,
  29308470542880172710511086042337880543243178263642138254901408770,
  3385432023782755623672704279419181814738874158642103986659344769,
  23023912884151972339731057905660474555010782490627834225571260650,
  66064341350510109995417578533703192298893290725954403102711281310,
  50580692368936160325567398029487008703785876477763072951179260990,
  44025814738829886656261176142803702814855904066331024033794749570,
  73775849712720310803501209093004736887030711841541325725278194990,
  40141448820885275381320672982163068680077418883147025690678555000,
  15939891060410459471649726996458704156411243173051842139270704820,
  37038466491176102773300886094507100193388932417336303473511461810,
  50067822778670778546996731267838497492743071591941799790912825830,
  42485242022669755796713639990668817481282233350164400504812742910,
  11793574248442908111342910771273542963108385167209772683986942940,
  55140483624318356600449817203900712656646074834618994465828253460,
  17943919764134966021377589912535662699925718995769258918197003620,
  46688436491756645098235347757567961915133129864771494238017176660,
  48168036415005115717710324486766412561955055226640749227895492570,
  7738839412500866704953468582262434484460577098976037120538695449,
  13126359418872757407499544171243841249333585023099359107355297270,
  49366463622651109383190679638344459720471327374584492631028429270,
  19289447659267055147498323097515605318773471496992260969661383390,
  25521193154786531954790954911469403224291648955869237475556182230,
  35148538453654966471101850621317495879684885534785619507438019600,
  3997685043904873489524244640163081352108781221452937983839184682,
  37241223319194366866327756361624811788396873955888888835092513800,
  29266358512464090062747070949209442512232017661337754885287227330,
  12488629485109363412355949444283059539935804699912033184261475270,
  22972362093997467774809858423412732326254656539203650257309545370,
  29904608682582383201729970068935385683956817679742467424307359600,
  6303376879051898961023157330650522718574211999489106656974885095,
  7800179260901237889924184766383610203611919369515327261724535910,
  5402377065332065365633819052735481101089353702962135794349480823,
  12040732614301356837051021249205620526933292919297315750662611630,
  2196310583697609774425149858862872042034258910104356300438658507,
  17694448178781169471224022684378432077840633487936580668679331130,
  56747233074494802519198099016216454227359311545252087547606469410,
  13887575575574363765820385586643746242442512199546198168042646190,
  5396017700250865273418104563819530593509608429705940086427754081,
  18147818692685882777674456716808406822894474275011445036562074680]⟩

end Tandem.QuadTable
