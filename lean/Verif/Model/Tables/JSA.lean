import Verif.Model.QuadTable
/-! Generated by tools/gen_tables.py from src/quadrules/JaskowiecSukumar2020.cpp: do not edit. -/
namespace Tandem.QuadTable
set_option maxRecDepth 100000

/-- The rule of order 2 in `JaskowiecSukumar2020`, src/quadrules/JaskowiecSukumar2020.cpp lines 10-26. -/
def jS2 : Raw := ⟨2, 64, [
  [1285157070717654367454741104459494767402619743951754771664984926, 1395716909679451068215139347070948009372495642970174062333004595, 6217058655734218858308602288449462725624264675787461190925571035],
  [6080544789917290353352026976056677921802082913005553415291934022, 1373527300771633569107882610864618900519280751754135287492534816, 1458986947266748553574428066516150609037050817091542553840849233],
  [1617347277547459923615595186392622540961879347711045996392823248, 1593401922468276001062132196061943110026068555182838354937325668, 1606122963421696761669446114764495101877657843008427050038823641],
  [1374481016885109345821280537976724404795934260972582838554398239, 6153805112897389227931972863574431963718778923710965447030325334, 1353005423383199276112897414236425035052085434846657439186420321]],
  [2130740063197066357460721572833601168921882328264813964795771965,
  2255331922680785275710356483050177561885055662106374200994805939,
  3424848235779030092612650248825592500338594753218873241996872278,
  2189079778343118274216271695290628768854467256409938592212549816]⟩

/-- The rule of order 3 in `JaskowiecSukumar2020`, src/quadrules/JaskowiecSukumar2020.cpp lines 27-51. -/
def jS3 : Raw := ⟨3, 65, [
  [7010269736516834897736462029976430785011843298410622625050315869, 16666069973042602970160928804047961183408904794763336779112032620, 59657574146364501619612722888339091720470110201637225855079796480],
  [16869537147774341940638816977663208406025835659179157202404634370, 58465262669884731802763300340717241533037746943361677623473600220, 16869521870853949089637062071154376033150198458792670422756017570],
  [41817578924116564831768031826716069264601167032431916036871841500, 8030372567072929843306858094418692085204089383480180581934490977, 41810134815611830582366750157257562146400815568441941902798480460],
  [59657628884882004515279511285126672703835725071695843315522727020, 16667263510598259053902372222972225661956348557993690078556063710, 7007860269782415401041675884388745351141240885236800372881631442],
  [16480854735284797147351770924410348723978179136478925056223913560, 8511347151861073562116206354661707875932467379499308066010573494, 16480868475535001522298859877264568692440969674675894317909846630],
  [7314756676686161148531657432390011208855848604897186370995059239, 44033913691821296721393876016167327844282487431376586780964151490, 7315706144977753729237788840752190766020382895975209785913938587]],
  [18039640763272402833344143718624537326403548462999048343520147940,
  19331629429366171620424617698494701450637285525579158845992673160,
  13359479887035868584884076658694574499699226887352091234019746280,
  18037107914669762255001285211153158192419409279713001128886581840,
  20101672094459078252484136833186063167068846172295923574315955340,
  11130469911196716453861739879846965363771683672060776873264895410]⟩

/-- The rule of order 4 in `JaskowiecSukumar2020`, src/quadrules/JaskowiecSukumar2020.cpp lines 52-96. -/
def jS4 : Raw := ⟨4, 66, [
  [118728074080576561465863938917026708547254454891206866112649174500, 488139312218334883295928445771838012428326096366612776061837213200, 310812027444179207990534798369595368358996330663750118836979659900],
  [5415713071965579426862766019138515996498526630062101705897797222, 28620108024415063269431070750010855765670149369389753306037666530, 114481145103298399741196325141456853812888093167568799069453838800],
  [446993110669265447784536250966900133284268500863579502614128547700, 120114931119970255154319076811425331423996127510311140806973088300, 332488124672645435195295449466759042340426523302670605900282278200],
  [12687245259173331801722266043249436277937305438577028246127812740, 190150550188709723815336731056066468472673797818994052034973951500, 585291075471326197306477021652762157604824393808489590117494703900],
  [42795832950553140524548129779601445177463637431244322973343672610, 819345052438362676210471526994931032305935356551250774688648420100, 26719351714152292358001822041522766037511067383358350360689176510],
  [91917866834421736021295124122859889252603339741428272129443690530, 337218262304315665440859462508670390980483940114383732219307921200, 112649133107394963646374740966705484058155613536170871366097865700],
  [340216417701116940346541848295569470310535221679003229895849849000, 86557484679865964396191225834119206116312189672919720815661208830, 79391877387070836824602934629666537851097997063294211081245583220],
  [750977943072009735929919988929044933892399299139372437106254015100, 79692524193577793396514505036673514193676653851512905893461573620, 63296594113889041671912278689818082452802849301182078016857265050],
  [145047758851678602834905640341753499142513268547812133076157675400, 61206893331017436249775983809968432135501271545822662339391770550, 442997468087453199318002931352921371792831591351509773508110930400],
  [394091337029761466085050318379223957982799004677563096596274315200, 439578878471170931500978199283777417426309757976480408649058206400, 57741550565775691493059801564032741539996956430280630856824425270],
  [131683426201617270624064772903341236129619893778277790541205480500, 85226802665704914820140138950787296703216206493399941328725237350, 774284002090891568595128950957518303536396742224350736739668859800]],
  [141866572546584701494868503889846675736608690506417072750337513300,
  24732082431070746193106088354295296014666185079473625419158403330,
  152919022432933859190563748368722285558568400952346072656340131000,
  54818147331537689032839205311246098718588048749644441550358534920,
  31696723377240063917366002903829169763345676028945471093829396270,
  151563297845794056139778304497071602255187553078491217571127985600,
  116968246154424693064665651425642356800896735012248331182113661200,
  56945671777658369339516340977741731350068836840997586249493627700,
  117132462663518443700979428926154781578502632812435946838717878100,
  111295566773724523033313784376528646910997330130131063012321292400,
  40062206665512854893002940968921355312569910808869171676201575920]⟩

/-- The rule of order 5 in `JaskowiecSukumar2020`, src/quadrules/JaskowiecSukumar2020.cpp lines 97-153. -/
def jS5 : Raw := ⟨5, 65, [
  [31088591926330060979734573376345783299261741343974837910275174990, 31088591926330060979734573376345783299261741343974837910275174990, 31088591926330060979734573376345783299261741343974837910275174990],
  [45449629587435035050811947372066056093436757838094397569854015650, 45449629587435035050811947372066056093436757838094397569854015650, 4550370412564964949188052627933943906563242161905602430145984340],
  [4550370412564964949188052627933943906563242161905602430145984340, 45449629587435035050811947372066056093436757838094397569854015650, 45449629587435035050811947372066056093436757838094397569854015650],
  [45449629587435035050811947372066056093436757838094397569854015650, 4550370412564964949188052627933943906563242161905602430145984340, 4550370412564964949188052627933943906563242161905602430145984340],
  [9273525031089122640232391373703060524520335376054576302841333523, 9273525031089122640232391373703060524520335376054576302841333523, 72179424906732632079302825878890818426438993871836271091475999420],
  [31088591926330060979734573376345783299261741343974837910275174990, 31088591926330060979734573376345783299261741343974837910275174990, 6734224221009817060796279870962650102214775968075486269174475018],
  [9273525031089122640232391373703060524520335376054576302841333523, 9273525031089122640232391373703060524520335376054576302841333523, 9273525031089122640232391373703060524520335376054576302841333523],
  [9273525031089122640232391373703060524520335376054576302841333523, 72179424906732632079302825878890818426438993871836271091475999420, 9273525031089122640232391373703060524520335376054576302841333523],
  [31088591926330060979734573376345783299261741343974837910275174990, 6734224221009817060796279870962650102214775968075486269174475018, 31088591926330060979734573376345783299261741343974837910275174990],
  [72179424906732632079302825878890818426438993871836271091475999420, 9273525031089122640232391373703060524520335376054576302841333523, 9273525031089122640232391373703060524520335376054576302841333523],
  [6734224221009817060796279870962650102214775968075486269174475018, 31088591926330060979734573376345783299261741343974837910275174990, 31088591926330060979734573376345783299261741343974837910275174990],
  [4550370412564964949188052627933943906563242161905602430145984340, 4550370412564964949188052627933943906563242161905602430145984340, 45449629587435035050811947372066056093436757838094397569854015650],
  [4550370412564964949188052627933943906563242161905602430145984340, 45449629587435035050811947372066056093436757838094397569854015650, 4550370412564964949188052627933943906563242161905602430145984340],
  [45449629587435035050811947372066056093436757838094397569854015650, 4550370412564964949188052627933943906563242161905602430145984340, 45449629587435035050811947372066056093436757838094397569854015650]],
  [11268792571801585079918565233328633381046779408366291675011131370,
  4254602077708146643806942812025744177762727811712344868328099570,
  4254602077708146643806942812025744177762727811712344868328099570,
  4254602077708146643806942812025744177762727811712344868328099570,
  7349304311636194954371020548632750352309128874065191022496719265,
  11268792571801585079918565233328633381046779408366291675011131370,
  7349304311636194954371020548632750352309128874065191022496719265,
  7349304311636194954371020548632750352309128874065191022496719265,
  11268792571801585079918565233328633381046779408366291675011131370,
  7349304311636194954371020548632750352309128874065191022496719265,
  11268792571801585079918565233328633381046779408366291675011131370,
  4254602077708146643806942812025744177762727811712344868328099570,
  4254602077708146643806942812025744177762727811712344868328099570,
  4254602077708146643806942812025744177762727811712344868328099570]⟩

/-- The rule of order 6 in `JaskowiecSukumar2020`, src/quadrules/JaskowiecSukumar2020.cpp lines 154-246. -/
def jS6 : Raw := ⟨6, 66, [
  [874616888567068321151556034270509403662559752253171049483037100100, 1650241439687542348920482354188793210543315647551672559880280318, 104298303780294255142130632793626430428874567628491574003730527500],
  [162437774336480591789998303132732166962418939772271367547147456500, 48657825663951842745242432141773015569755164657919536615947317040, 555486554692277779898146853307592150827574020173497713994293665000],
  [625595673327035001183982799509549036695847064278980697370762743700, 216784059585165686101125137616633239658470254086594788766405205400, 133572971716191862675458967604127414208623109660057973985712388700],
  [48559034985499706987356165590589712987992010741643845049136711970, 315234134256591302795553063433608109060784686858939408352913523800, 77779944790670827532891103946513306230968657472612543447880488220],
  [212391390843085020324296616898736538301982605957736818666939501600, 551204621552677982324517183557336570814236058007824433500863726300, 191129825373899076602445652324025971172727290626440230737659481300],
  [80250249118098602406579827900029469579259136880641297814111375590, 873512812761488087436060282849789843772900764869737598890897040400, 23339822787965316090280585437357584893409961334781867318668051000],
  [2045284371327750281966983976994857212527374015015020870916964711, 61918573760220043583293413868097458602700458147566301230563004180, 382110521336840641336803036402976148716227785003995257654321520900],
  [743045447076817186784747548134092178515833984089217563406808150000, 111673587612287629825929232139410248139160643087302834182001663900, 1400971492713620452185227365020696765497862073586368164046200245],
  [291249165644977389927674150780717709631136800317431616309212077700, 220190306749826565290304951817837031477884637258533902086024202300, 15677292865480798009767966156244290031833696729502912419604023080],
  [512051241017705166116968739832083451268019351343228715485672542700, 11404611125849021930695550641699259552319896746302317205274755230, 414786688769784849368587794346815575224777539963078299379198074600],
  [1195728927010588214179446967734119750747882412115799710449056715, 680301784905681268880180819897495203481024639069955087563499678900, 235050538574609567880648297534733300933671538705133119431073707600],
  [418255642800152498072474706282027535713952308459371652563418844300, 502924384853926185007358123314520760007038095426987871288019337400, 1482349258806382118029746320525466697934167651916598940034440430],
  [75649505773094385374827812559940155024548343615940653488617567800, 332321141871627545593601023402216670108230068523219232702171351600, 540372257953982206429946985094738586899564097115703483853693612800],
  [548024921362050848921429414627865647414619985937296762222425063300, 59667216447000099769694334312529070999550062652572953327343458630, 154596349445486339057550540668306545849903859696259157349794656500],
  [141008504673562736376857820375956692998959141566673364294788934100, 50893731325442502831246284495267977308922086261302551533549130490, 806281245135996851450714583452021754249677081460862671007525745900],
  [216600806219125141134778474158796105910336982347875077355862501200, 68600311491698966823085018550621383620288842199606591590435122300, 216867091164196811536929932681673295051153048766654553720576980300],
  [424691036866568890385286312921318223550666999483848420623183353200, 8480121919598680578671903126927814010991038160694223798158123664, 2614592869876169181527701311231280789795907522495676278695893735],
  [334049658549677696447906859187279454647808772568898381719714692900, 309894633544695081133409294109679329604441361810967357735099319900, 128457262465984374398815867797768334506963207979969804137554988900],
  [333761349466910621553291453370286593700354557618291870742127435400, 173167225575504239662689240360854465084831650084547982649380607500, 417350347836306558956048156504076245727893236323649441155668327900],
  [76703973943437212200364923227171719325298877792608283466720312730, 301735680571603748132310361645686255149377710959875883511793475300, 327492235023628985156782342459357348917255820886556531047887402600],
  [71876412629223041762229057034704370623200061386010017306990620840, 62888882434586534107116044581475652134957404723972740408900389200, 67060937478443923646440829839652920131194281211279646706935331820],
  [6739627681279246598233187323114368141182559370144488473382397554, 90474589599660589406608451629393209522921684902477927430593093660, 766896445575367144196810799911492066283865648307407980253735624400],
  [84095544583773187562666972778550572302339150032105556704267401870, 621120483149685899457729413319898385743044974612149204345690604300, 55514553070130850194133985018028941698347537281677727281930805950]],
  [7205133350337782940137339490138164678345058797715414925665471704,
  64723023480938301527184584717595954268480164050079276494212763050,
  41756128981420289267237331401902721350031261978462167648568092820,
  46886659194977744453722131688601596671953755231260503428912040370,
  64262654704983714516581600130268916918480644699211904576165901650,
  9710719914043639123721288037174395894533834997209642430039355032,
  22830650763213849348283003058365968376936849531356489075383937700,
  20397704099624322930737456863414744470664273316658564825810749570,
  39680019298489920525019919175225533586277937615379277497747856540,
  21330355044711121366653500816538080976469840585178804108273354230,
  21163394238032089686103221832334939521081256149749983167303773210,
  23670321543232944355052723925107053705817107982427641131814295690,
  49053296901837275162571152991102106379301624432579313159696353480,
  69079023137850161070714322589005671148944478601782412324187796100,
  14331106467715437001896708075492365547967605636660006757164778450,
  83659169712337405638588226923254587733201783949535617369974148010,
  10846489275592889812079033819768974549012493143131273205320893740,
  102524062480595414010887131003469143796007569578270038346064928600,
  83012919414917970356626157663135753027623909687265620606350342440,
  101710545807978158638993063039002345885493823527270291299659663900,
  29552796716458875532568698879641621219996007404585686113510324470,
  20073996540079944787504304151150750771180431357958434622998503290,
  52539828930630747947137099728308609522198287746271636885174675730]⟩

/-- The rule of order 7 in `JaskowiecSukumar2020`, src/quadrules/JaskowiecSukumar2020.cpp lines 247-371. -/
def jS7 : Raw := ⟨7, 65, [
  [30024165729738876568669926725193552867005257579777689983634418060, 3439587640900977848044854484667970409182930383197853347148024985, 3635743445583757695286062546210534048307203447815373746624143152],
  [45627487484210115594927956375264541243624052779367766051953394040, 17709493363389153261549571394185790275042225009666455506286780730, 20238004368261197416376623587495090030606852904874366574377227440],
  [4351567070579801181952788424515304623822014316841976383729883036, 19070804639023857921652251559888189835120798461374903730555406230, 51561195547371805792939586078223665312875672117354708755392480000],
  [6747042686520559919148718746375322323157932479786551072078692093, 62480520885069273470624422637240475143522342840509137672726024810, 28647049112970472222011402419411600804960741976452259482209849390],
  [3517579620044008515680725665028650044884492888383611417943268853, 30093245366697369340271081739844870525490488177180682408005575350, 62638994560523383726200437768222958558149483901317834017135602900],
  [4655862318236976268201514248832519761501654025251599138731453801, 27826946701477029119814731595891362156117667368579464314102252350, 19046860638069417648765697965409231325782474259255286253115972340],
  [2704000074580650329739276408467490138286545246434791535263787874, 5925535137076793813978499976762919446439224152039282794899106104, 30855384221153374935599180974135294525422058819678056525255077760],
  [26468010053184408355751123863938954635087121674079978203722142200, 19714932725164448715682593952286454221306374597807458288677726100, 6497654228552173910377938949958679605113682882845684669487005044],
  [5843088702805924173129736118824468388569827597313913160160400001, 81789956215766579303593609068544895947337754636978823599183115300, 6038923495562989096924364436391935988355480820541288511370458662],
  [27776731596498867816360459587898632807163598980077119339481556750, 4767365733981071112509810570381723423870731587382125846748400374, 47937399673820656708684819714748853482839279657035289062131271930],
  [5551463732861113609589576954610409802893437147533265684300059641, 28692170651384516843717176867822828374639849809289621544020352700, 2724948084801731479831425317911633153464971223502325476426553420],
  [2037461645928369105177827792906589980609517782584956660235907104, 61255839664505187358662620374387170937779173791265136709141735630, 6230181632969301678432626375543965681412349211192225426197960501],
  [19222449855202593781733525272547200311982396877894185716363536790, 4302849383342601343526064502392125652679077706490414869759733072, 24857130566935544944707695632609768388482694677903600096223833670],
  [19910879189959036929388412248398948018047248198082137515929510300, 26423252864004324773929935549850021223302226944856808663064706440, 47186767929123709883378359982606273032834391530200145240220729530],
  [62355258263543818888169104092265920693972319640525816042210648790, 28943106103591567686462038782827187684705692126518794767630774190, 5148311927580126367913777399584618199119202735048157678633332474],
  [5942256900961527889070519643216435937141695429645645822223553504, 5887963068014094138452135146910114304289468638303703977050788413, 6378926589682203746162658174612263506048793619604931548190377123],
  [50283286368340306140486245103897340382239549311443138433926847680, 3114362120227596860937503685829822129649939485284406089170843617, 16031444566326155086289495566688364925449931613000506419372923970],
  [16463012587744540269558233060711477896305367690789539812754309250, 52017657286471107491809426814218814013849554997603888581391455040, 2287291427434434588177834489416018884005905697080773425290378248],
  [28913128809997992237059094066720580094142177295309842321288014340, 62419828005897359510624004081837006807698950145775239347992908200, 3473184011806575732833739776949314761956811288384679162659577637],
  [45795921783790156079563312542622158906094934922883683058906476290, 30519669208303795209270777769824321843086439095051342045677545440, 3801602948513748122762527378917368221313419951849818274821775804],
  [52267887342833429299883778754713129775516748000549362374981245610, 16419561912058706406385793713814241470038857180151911435779632560, 29364399123323493670984533224903573766148443787988286536367839850],
  [81779702519944656952085872978915911913874344382437978368996280920, 5836065147429206950998031780706418605872405015512551717419403744, 6354525938565314380561127122141572768756360306010386327421693424],
  [30531354487844330605034221382448832081117075166604667277933314110, 46039959349512010994960392441845164736207685014798961211355982250, 19657119451891830442575490201413820536761461006440690054924301790],
  [61069472821932177080140049391587055100935631098008183065511774640, 2022148557997553456616481976654899997868754392361103699801751419, 30559253172656551298950109148179288597044082969070689701401859470],
  [5856964023548992432656269926475024405129924069493895136193596170, 5987811122172502460189748915301092697670834377749827476398130376, 81840452799165351267157651109620475336473372932452718424013835180],
  [19471837766617258830211827918346125295472199132664946391725544280, 19803907717237903862111505070925755559855751192154444853685767900, 30152833790318184551149685621548121322393355386318066641288640330],
  [28583334579079753367702040718550204096593934929879293766916026680, 5471855733121778042734018902032464390307339460348888262295807296, 62968845146790801895399790972873814880425119026612849042628940290],
  [3040919400991044809756611492204499301469079812815907574032897595, 50124864034241178303679207619198345921425745054601457543953238260, 30422446512742344415040071858903549410812025589072983633632837460],
  [5971708157604289460364452305206330253445013219174866706995444657, 2595901540764639682925672397757890862323007265246579812064187364, 60937865104191715337872346419621410698925393867037175552761469050],
  [17657065214071816506673434908523002696462246814079686801082925080, 45536149440722378595497158313560605066209792259769370558209737840, 16762940473170030659095225943552229497477320652511599828805452220],
  [62623072457326733619797310889840819137602733182469444936366634890, 6805761811995238408657836379138677913411213203740740818468461441, 1987916664128244372824290860716914245666808262912666155550539648]],
  [1746349349656299841086778811672928570465516006519633046880037335,
  6498228046837347635538555914198267721765906815561529441616310332,
  4329094194118220857838121515336273278501494861635374807914951390,
  1969661830969762822734938940106040252604797024288066343720645645,
  1803660452307751841493601872287886802749790623772031246819157806,
  4657897895007257547974218141341820092434846439907761466674682463,
  2082559198561092147580686487003423652987199887541534609653716428,
  5754252163356967296547213489065306099916198298820333686630330788,
  2119465165017259007139457229140243840830920105514261177748421750,
  4718838116371158418551891806956473712754130668398674309216241182,
  1965015918981211239008307024846592430899337884361241278318801301,
  1848208373447896788272569136959831008046530860072578749166983128,
  4274470110086474761441477035507362697278927103930378400736297045,
  5764072284578248473815219397480812100442840787978442870578914334,
  2235761391364179344971116049623471411799009979570133834678617656,
  2121913845260227263763644111171274866835087348190290240692331278,
  3387286857333518375214178562264970336926779034746802376425130737,
  2679493575809087234438749757092856111190297740482753247987082306,
  2210398035048985360419426618434389043426182499959589866768069418,
  3735595782259541920412262548479575795106981653738525658003538814,
  2517150534658316899885722667518524743522273392207692608763267987,
  2123516865835264192372623792187308763642352446224143787188855618,
  3723519909494987429420525926795980213585575044291500733971077660,
  1872554972841556670787041893669026395658095429810562882290708085,
  2104105715176330442109603360264744045711018002878621736758974020,
  6053153533562694097383387616179358029502902536946540473276806352,
  2046100323875207002919952979696991373084961206304785679351598752,
  3351092315697243842623627396414892983984369122687894867838006555,
  2034625732143072352641213919089956442071668156790676566409058302,
  6356544866906927125935015608007763611252775324191305379227259948,
  1915412643435911765678870391205653571021233712676338624694125569]⟩

/-- The rule of order 8 in `JaskowiecSukumar2020`, src/quadrules/JaskowiecSukumar2020.cpp lines 372-548. -/
def jS8 : Raw := ⟨8, 66, [
  [414577016512783952326056316213715743224801408559137930161694821100, 383083769281198975504649388973228919893310330114222700241744020200, 191218637011943023740084197626318792046951593724167163970348629600],
  [47564986694965887061126751452994938249199283120013048703490634570, 38441373870250716538635904099843097527305600413153483512730981710, 887111950636645744828625405666185632969666922262633732433426777600],
  [302239203947550609341060568563207063702356596745845081434237305600, 309675518922381828935249483484380000548714213494280511808216955200, 16216452704534623829211188411529900760870562985052975157657658810],
  [42444418499087912306931121655213582546507018567870002179869316330, 47854865606402559405183809261216211415051526280067347884304770460, 726418555126709412512978934533885244877053924896538973954911347500],
  [443854030653717311742702101914228883999157746720687221053573307700, 159300059999623885427910307065345311478061250047125482892390196200, 362666743803557636277425330120684431979541902152581567197631548100],
  [134998506936398661090542104979907821570630154496175511052966374100, 432994810029609385037176532918947364213779486544241426981468639600, 406563216032465258742083996765094864443561933983064127537971571300],
  [270249189503649806658723842628431862017122268187446477891119138800, 8432871254456106096331768590487914748391005172763338616843672462, 212511129165065749126229685250052664965493502385704224780205897900],
  [214158895426001701710249476986617319560304198368464799546632140300, 50203857635624033366975590959025707063715807082883222234734561500, 493646212894191886160140624541856808345344392877344771754499496800],
  [145679320756575505010510219688667407429450960695363220739880312100, 142079927773269318511456425743153467952144752662392864616684720300, 265496124808046244519990325023960830074279896117037303493773221000],
  [480042263985587854533716289745253844685986435748774418969295480000, 24551596279034239943891486937961920025604637465541795334365753600, 455557066278125693777081519326086407258519066259077701855453318400],
  [32489208136881278199667265798031720136341473745756069196558554430, 212600598913690279660958861275841749314714215816420427156892714200, 710384992109112604751253286306023286133258132829989477646815076600],
  [699185289739283361897217474831920617921448879300855372150427448500, 9268153293509993251799932447052196755741149302784893432622987749, 73269587162915198215780988566621304433149975308944973421386912470],
  [691270721362096976955723155716432216652408865412773740574685876400, 259032276955117159308360704274511776196272046994433045803150705600, 36550684792241494252904420718275175678142967092845150523329767140],
  [11109282614455249396773887052624868936217891602732892987767514330, 501917251333736649505343489627078098021150821777804109712449964500, 433757238292295118878575673934636119350652951324028831929409757800],
  [158917765874716021475202731330451054908714561729281913599253065800, 352563561284882633796723065384533975217658147053199558343574252600, 133511084204979611040880762475283590591663474153702444767562503400],
  [63619535324727966147850768754934788470255888390035586683605796040, 242569499211630422040612875287580037722754634345848120631525171200, 495004824775533232354444628752042675425348325406447536735050015700],
  [751210798427456535301291613269302897049699723698526478678721999400, 36130791730547864465888506091847191073362150846264667162612613950, 181426042652300167300348450961368927279848154553581879198612893500],
  [441636536211775068329934113984690500869878243102043033714158315700, 454331286258816429649254391378185265899030219453686538890417747700, 24127952086538732505977771241925060667165904210490441429727520330],
  [479399892597013233964753784810572301532386949458915338950488520100, 41211463604489554698847751207618770075154948611777756507859209810, 290034823069017969992566745010560733580638332889338911839164093400],
  [152619691001444617632037002972202322979445245048188291903618730000, 11049423982768930241880187502821846989898656025106083633618196090, 39470355842203934017450310363884269757704531728583168014424279370],
  [881257957515219407707194812545049606145313514244318663082535032700, 49354592493092416177396221622234100693600456004333299282284520870, 23816189278092678135132563411694931243767612097674498347972584890],
  [634806528802436841749055707964689052830776913782298889676042094200, 147726977542755902179383503330623447454625489306739891832293543900, 14321190994574044685463369201100039253790407836232160766583629760],
  [16153776836207873929251987094090293819190619941925534061667675620, 53315886335168110234306706775903913307414286560537133070326902800, 25427995705549033532785459482677583334655988299721347563538725040],
  [157135080281583416592500866627294032242314308723476812445689684900, 634625470184913714199325280629206755128269891492723405474912500100, 39298700156349778273822413055135989452770049093983883500115498310],
  [222143479347339009497527162070444369104365651949093389745301843900, 37392853107016664551814258198913342671551345731491568362871823210, 686553034819903605900495300370833350363287587325176520293837603600],
  [47419766123086104290757814166931292175230354659109816636110768610, 892020288553363664965698156437459054586467031245163542073594584100, 13558201602530308972603226175781404663599080730362030000762655360],
  [197125737439910433724378605273010203549842202688803197103619981600, 126376640625308400336753414322208892546099613732587368590676686300, 53477378163019984822555374383689294319557527797164720648366153800],
  [55794861217799247359811462156204788251222153290637745025353142970, 469841177589850096293799451369882191598450025965980948850108375200, 30968156756488624642406124771572485748455525011394418110349065840],
  [631626145272423134309622816104867151465830313372076773984822361700, 156423391893459370856924743998473901590539231834925482780183107900, 131576232126842668620129681794901304450186271793797941870392030200],
  [194139265592386214021537967561351441828800327469957400483679659300, 522275437478299184673238417882241109695823397133211260754210094400, 199377851325060962588983931111842161749088899176778484651564030700],
  [53426642907766588541547562122474561179099283488356361956781099170, 20496753356122174541157463287473844881786147271590539412145878610, 458040702901735421101591935959153963358718753812431450112368419000],
  [415195075192022241319022427056547971830589326786200796154487395700, 120634809535856242405818784453709527231427630381841847795264496800, 135657820501985783227185575719239454749459934528482261073269868400],
  [389601138056127334491976761389231256639277002023446877561862503900, 333272485659918628143856383058602626938876494011874067032889668300, 111571753993636908130729280664301796147219712739243412125094919400],
  [440551965782800801501127367864656234927149755801392045851664047000, 42623727718463218072534300175809312309460815280110733081605704790, 29887943067258311042262533667400798535844325354664129004384417030],
  [190108773375479897052732249816001573029790026462245002887904046600, 181514250286073929909850045218241209797362691279465566095121808200, 590477774442602077330788686639839766677928253538543393939370389600],
  [44528525616766437615436854012945533458563300368365903853745932950, 51195558828599514725122129046019120390460648023549139472648315130, 183833636159961629692552642640655213709177311270279965017910444200],
  [8617799898794720961797790528074408046489675145755588416533084753, 702200230188865488567076377332430511321370993088344348345908353700, 66398904494806306456987017209438094321275512482766563105150215710],
  [11604090065766672210911756932293810629878724746425054607039586710, 143320985891535644601626826731996141301218497859120942562183417500, 441216473790368443092186457601958973836864192694961051905168652900],
  [245598739968395167114971729592609435972577713741439519404337576800, 692975944646558772441633356417538841568255843536901303751577513700, 52528591549320235140522546098587515940039041709634245981944428500],
  [50061027293723125573379817185947793331518764224135768131502707180, 217380096120081298180158768288558458097356165580983073175745935700, 39590815032898494353520891823333784421292305096535442879940124930],
  [267141554423203932169751983797361615654746243541952458659368842900, 237683965973186931253392962627036716159059573415373312297313270100, 337022817447687652036569463049269930195221933704447753172379373100],
  [48050660342372909360433301721978070871192308197672541457312237780, 474285804579739915389559096194997931832772046290649379285051657600, 251846396441419887889714438201768611253157910315240212528713963600],
  [13052811800961500917082210636159200112193885584291217823155578310, 282270749491210936162121889675021279190556851010300572530387351100, 184859180145377445865201053508531277227436954675495615629255230700],
  [47546999618654406042147729886014772038346124453002669409301830600, 751686967870161545841856657520506123482895016134706760116531681000, 160027613551294093251195469639314057315663769581331355488222029600]],
  [18169923192964448065987482567914916498760012903854961352652668370,
  5610582376754646253542447320811019454262931309910802129013252531,
  24618113592570711164579308633114432600783121897235031947329263170,
  18054018196019003876414247076303859335599932742823279842057964820,
  26753880728404350072137164332702206053201042471172600702619725580,
  22879887943820600434955523219853639427601823078579616256227774970,
  19792400009093018254985216084423593061293284384584267759508381220,
  40799907750859509302638951740828393163423248520461052163462376740,
  56048355006307431820106444619923276341366227229171279896663758950,
  11644535026307391905380118262225762070893851668043219588955270670,
  13941281563355842336913220282589419881061632541015891876079762560,
  12043467782753018771178134433447379716772059455884325340691314290,
  8058305251223210510055950738171070581391515917366116883928658870,
  11164022607228763276700336490028721670592054765220750744066980080,
  48901699498042445892432947796852340036443571471302176097465814170,
  42634596964042021655029184768823174211260348666195529861730194650,
  11041162921658176641450465685909747825282129494105573242001284940,
  18729702332284291851923609592709767098523264712381280867272319210,
  33267243730211238226688206498216720648205697053426298824744018840,
  6754871470699925047713340043111735514313113728347044357741209337,
  6242538545827603548039066440186178474642606591950010341665821771,
  17525860259128294086004667916066173919682142406200551270086353610,
  3488893720357850056106626073441343172256636708467731603081594506,
  29351666626653948748761826208008190223147883000211868975255179800,
  16742878232234521998226838492702210144763054017680530959288858170,
  4837963053622819456642838604704795006579451564709800738872456613,
  30004603093546233054350217807582284656674932992072382424180232270,
  18470050745108118423178690644435769413011474802228874688556125340,
  31491085043983882926983154006203015831388674239665408125330127470,
  37379691990781290553762430896354928613707820729454055591246257640,
  14592784559543437603456141674009274079050801801349439589417362250,
  49441879647422509499685201660118600695763247916046247014714946800,
  42552287871515467099182478590487447258162933669483124012382932390,
  15797110605445570882273317060219870586337511961215279178165735930,
  24142002450185486867404545609677338036063710110265428024731775810,
  19895858619262475364284830373794384445595315971857895531764447910,
  10374402568582639755343945726420410272036251196371909776443377370,
  14358451513608269416011569466272015408981420092850448485564447700,
  9882447251868656491492661303077815811027138628983914384497484214,
  15746479749431234667124880772382477881237769519393333317004789560,
  61881076708551737253543165032858644121419222007644310451367340330,
  39179604995754033790442491129971559227746041002913079748176920110,
  18829381693154095617229788820233649897660106913699512071873755800,
  16883042509829777479656325502830447632032988144203763962119682490]⟩

/-- The rule of order 9 in `JaskowiecSukumar2020`, src/quadrules/JaskowiecSukumar2020.cpp lines 549-777. -/
def jS9 : Raw := ⟨9, 70, [
  [228771921259469196923836462024720725852825958231613830960027866700000, 3854277790362540678151657031943119844721132958322404576931514498000000, 2037937874247621969093703779070501004228356253708853266457258475000000],
  [1779013709110090783698179586470339428471656743238001514676290251000000, 4091789152201282429804320045491010659914515607147578500728175861000000, 3768320144226283933755278120800405043072297194789123531564741747000000],
  [153346288504854841005434555201595556302935956162826926966725658300000, 4395414314627663569746050628746102086604990262418726002397815585000000, 3856915922907349836903823771935318347517916280387174631893311089000000],
  [410266143487432552176587667473829305448245347817788595033620763200000, 8702665707058525998201204605405254875886007866026818296635112125000000, 524007500943351277613753764557559224397090328784756113396571495000000],
  [1221435077921257375841034381895619203527447402387988560279090252000000, 1703632113240204921046545332380279174328455823662683938166909557000000, 6931483893283681239893367414857034852261555593053659747092854819000000],
  [130064788249082185807402850030879679500735485654366255642173424300, 1691795878401991586781424618235963636999231969766110555094026361000000, 7840636802171264387964248926582205789231145940447825687362923560000000],
  [6539546088038215416554093783651624981220317741976085525598146172000000, 358013898335501656657427655324441902280167956401149742133820437300000, 1084429676794620788574122496517296056673835761787771953851319068000000],
  [423720274411046771700989582883080505296239736747498180038243303900000, 462330391334404545729401645798153511157260787795907192149887262700000, 369443137669500441693031066293440643038473339672258566217773456800000],
  [1676767943964418593287954081105171875312166454305246720444304340000000, 276106056520789048908549281608381797696223394285364860503946855500000, 2633783150667404184942795343886395360477802362316593879926959926000000],
  [300416545621096173886617139293643928175072281065908979495106880400000, 1684488866191471171405307020580624027760019586586184572264156715000000, 2257928860667317241271311788302879368684476762695458939294805981000000],
  [2969101972787469040671988164301119480004799300287856313266829504000000, 3463378689772197124038880107887937017617371882404099250684991268000000, 243387829090815335500775691460138657715508980101832312378755758200000],
  [4389309398965947607704874132302208609598971324352922855178336124000000, 242752693603188173123903775335075061719989406819423844477613238200000, 3599485361902332846156905292705616199822481081689818533626237202000000],
  [5060894004176661426257474394704652684184044017859355250123721301000000, 1129766995689154825357381293785989487617975966322309696081831365000000, 2848034194058732546433932110120998531799467648962647962251715426000000],
  [3093454158727241102557001090369193659045300835567190101600145607000000, 3249822555407154213498266942307991982330143250412548124493054062000000, 1774721052174033791814591828780090502277274590834340955316230739000000],
  [2003288579260044391501746450880029820365831035559849926814609493000000, 6356109460036826581523552318241045131617360428400657298046163728000000, 1459507330961254944255377467772847294834541737437077849844316042000000],
  [6409443148321043405099362073300363827645981113559250620809087384000000, 1669655587902913971931455016975045161511666410323952056413603944000000, 3804307100489131020176535545877093185621789913539041534225702667000],
  [8684348906155640890521887854715105018634699171790064125014400423000000, 459524179304327371558984266623752858866811980448501435201046637500000, 419438579369183880866494182157407326429987706401483093562135695400000],
  [353244186624793799820303686689745007376894441161217694644131371500000, 342602781758433284647433079847202509727269332376086346407821002300000, 1926456994684344593430597853572826793849616470481804421843737787000000],
  [2082525047814187213102921204461012172936827902133477756391439068000000, 74989005445734729294675149780767548259428627275178518411872582700000, 587480405674917492988704756194853938011248777264464813165561390000000],
  [424979321902079031627808948233858184208203945276056590091851586700000, 385222523881031242988091216010148520980820157742296850662710037900000, 7122430931384430996952353862470610564676246779935511345638509322000000],
  [3992138743685673258256841956947415547754674076603725613896392766000000, 1757543676917409351732487979086156807212392454782143614643246915000000, 509527826206183745822811713503217301171181561020762556089158377800000],
  [1976857681788971034065484590866097953567832650617252196052842051000000, 7343371859702916032174975089489255010051797714493882275871360731000000, 196302740281513923569232033855876971224227999056247169018532567900000],
  [2099687083368246718958772828202027079536388790718099678357486490000000, 1044992464136398899660086432077306741841199893349875239897031253000000, 7540268307832739000490527994114715355022322622507213269166325885],
  [754927954561146364236173749249772962612389719608987116393279096500000, 1955780460642323250078524379913790153259927106830749968695359239000000, 5953204920779403869074362940064617744717745678619703281683748428000000],
  [348267971938675011895361852669183641772711873534331724164610593500000, 6603573627255149318924507348507932067983708252462106905978644307000000, 1200651834331449545151040693690683731082738961288188996186132000000000],
  [283787085262725283830560983320052663952496334368656328248968111800000, 7846734722712416329781016648687578410916540711591481002786519164000000, 4032714584772950642598528862272645433447723385919366052638689646],
  [4599570448520207366531747899822016312928554008838060624924625532000000, 329395219054931010972648325884851222885617874279263853126880354600000, 4785665294057564631406899300651647245297732866830923556104545750000000],
  [3521798518257496463429445301656988106304451560541536456623301154000000, 1751588071180923500461073470394681454868210127331596459859760201000000, 4612374007141584901974832090631567134818570455614116014152715489000000],
  [2171825728901714940873430038904189094828859115130011962868694134000000, 486159871981612253590255434632312096516773691874559264086323623400000, 6083076242759426577054448030870185959085295108295539990542204434000000],
  [1769835041486189086582368961723547541748306923368226518773379179000000, 1221421889557460233245761679884343335668857539895836964365115147000000, 1093851510436900935374063608240452055562170090448112147326186809000000],
  [385688396366762345795645594974921187360436931142286071259301747700000, 6737565304587229398533507549726891560073357639583085514696614079000000, 2508341644461082942428653353200059613462435425046066257336831758000000],
  [5711357877921358977919428820593886764377771493028742611664405017000000, 1727855794196116835572803487534801182620238976969652379609718366000000, 1030022318532128168401569541792942118374452842955103363007170419000000],
  [2646596673044796581000995302912689388917798169867570089708844623000000, 1884660494181322153004960512382570314535080975536635936938683673000000, 4291259275953451170854052769397940619829458893302041536136865840000000],
  [1571292828045067034342380326561293621365986035857802788302452370000000, 5805461406075157055151051482172391223748861151129195422744015662000000, 342398448552173549469333813508888770318295532473486365980521365500000],
  [6635380829388825716487263799358323415790547160199677131085159256000000, 1217610687738568918133590186435371941417099156559516679123771577000000, 1969586385674539180287678782086689843076729387840089231863379082000000],
  [2136593684439528785952133698756719854771201321821406224215578918000000, 308486614875299247863414954260424892031113047446581139292561690800000, 7171530557196868115322669674573305481114385993831721092473731403000000],
  [1566773917997997889565246658034250735546476385316503680041130411000000, 3175181736034333157708729908112255595742473834773467022807687709000000, 2460050490821037194339259693047477773851504555555437673830267454],
  [1079976673827427725378112422225633658244887652498443036885897311000000, 4017631489702297494844959717018967536845889053902173459267854812000000, 2986812946355224628388099116259798366242528711344647179054676400000000],
  [4409806880459452236267383180996902363960083488831381299464639959000000, 4970119774390469726657415144495140426673685313572218455132866505000000, 399506026934863651229262710508885879001624155722524874987882508800000],
  [4254477514318533062169750252232534814006967328941470368301829261000000, 3401421454318485362918264262810309767774390084588146345215657534000000, 1980448837883506699466162038523158832698618699608053729427335395000000],
  [6946928384569798843177532988373419598770125551625359126217684852000000, 2319317735985255826981150566846586802217543551048258058322001344000000, 388553433791697019367591999803290555917385417805881560193520841000000],
  [356505810548022390196656396675115103675318686882799407828022565400000, 4036293430763501766771868669069939645988233539683939077689020330000000, 5294685040698826341574655519873291881039802117141863818717601927000000],
  [334874006569261035919125955727998106048024742161021672820035467400000, 361860934439792396426263324500242199615371319585321695257339370600000, 4581708108037080771699202744333371135149525515845858181649883577000000],
  [454430366647997636091936375137809428188837913436278969728393655800000, 335914400765359864835363272574028324092435520874222394233798052600000, 8803952330519741652121133104439524014668735541183941718689566419000000],
  [10448185548277284257333819178490696990447229403118380240705324230000, 1916915089545268700443476086536648540497101909025550129801953717000000, 5074181318482486435695056783979891293449841072997410220576879497000000],
  [3163270208687076989470820110153224087692097565729943133850030312000000, 1363678337579023917895366846357822066954318437897063118807695504000000, 2413790612332155545938737066189062228370665960544235366379276518000000],
  [3896405492708102859371319646855476258652510714008297301070480974000000, 277742454193376708345562285801541948871887868254941882610443307800000, 1878688449107907593031995968280361217716544106559656585761603135000000],
  [7406364104471735007380845772966009510520313356569943057597255686000000, 271695025648547239039106529244574961921769504971815795556517719000000, 10088448625600395145630487503008052551895599822089812094366581390000],
  [1477794601830333331833513955398795761667050266406926879610209222000000, 3339861060406962997449603037394500010552518753015889026150669717000000, 1171280597097285495146566680690343624143793697902467853323132369000000],
  [1886404904119914590542820646628579634279616876830983173750251514000000, 321791910367441424150962694567289039361937594825541569329367464800000, 4831348472084820258077710676129626904197211376536286878288304897000000],
  [7281357192410779733524806447150022695978992615463674797898963737000000, 112968130870926041656372869677435806917210915555003081171203407800000, 2175637092104645779629898370471374971818867001876474396042644280000000],
  [324051277612772963405276849359848123681828729148830518602393881500000, 4924708008762203051838987777608125657610975143887647686253816027000000, 381180575913889674923890809333778443084052513007875286909045771400000],
  [4108404244356825409196577685980341899939567025726683998222091555000000, 4161327723147283844450703239073226190755583010478016636667024027000000, 341551329223098695745540288928335561913064107340055120662526762100000],
  [1878404308389233689466999174564699648375122452189384436534464076000000, 5631872407093852922814332180957975550864258998989723875897886405000000, 1376501472148007048981640615058725373495000380613265894132604031000000],
  [1089137999932238079191557680388725433818006670765448665199438869000000, 1703763474658899296799896709290883032230100238686768096023353710000000, 3671064610617264447161175785589201926107813256491421446037398937000000],
  [4539162997518049832535880773627410118486189728733387098232303452000000, 382704480727342591253207992209334363945188546229865194970481793300000, 376101832415742870844130806249195702436953197256644148766780474800000],
  [350490173040331316267191310828581914268871681679712703043672876800000, 2229861824768844882308917954718944638573624261069467276303425153000000, 465507141469340369780312736804900421230503004697490206327818440200000]],
  [184541040950682574755215892376495165448850111621651070942674801600000,
  263688441379337826108311617349570251901599280171072172611337095300000,
  129843629997352453501722718717877501811564919831754791477254446500000,
  75369887473240991630018743214825957110700168719904769449669177590000,
  112902145957498523969828020558906685809700638477478393406929794800000,
  41974594510122719192062262410595011170408777943107246500767694990000,
  195297481245139565973463568312975882413519431660235483530705108400000,
  70701283089204611837027014604503123065662649418663991943608584320000,
  182295586188933300361584888472234428951747895529204025556948318700000,
  189742499799463382966730313502912828042511858268881012378997679600000,
  124790299046609610000817377507926727463694660380366836676325615000000,
  188590028529837515786096774777284937471853407175668148508045282700000,
  237485508817650068110839835858040878891700138972616776296688067900000,
  408665382283079113241236911544192762182804947593207121387516285100000,
  122781434129651074244368460136033105734359147843055072990101214000000,
  70809717367823642329646199638303071623761015063656440163627170360000,
  82426830370143771314524693229089971162241709244176370776442766270000,
  101967955729838868272961575104573058891161429894774390127334393200000,
  71690731469955151755404401402600980450356327994404775640050940420000,
  140560164595015547730585597301896702318310087076972202326734895800000,
  288231137270553174848896340917792863204900197592737725552872863700000,
  89077375556437859981937801685450863626168668080714562497921280090000,
  66457198867808957207700955435751893648133662336056304556792161340000,
  299035265454547694057812473170946565481875073961571685554621786900000,
  199599794625485164836068110568674919530214182567544960289698940900000,
  32902912355902963817459815275664263751717141058505319156319186400000,
  102526426958416895621745619532831463591888833155982307043291015300000,
  124745897808344950441310253613143390745056685298133219215889306200000,
  164536070069318461999586567053276559875911885682431098702304856300000,
  343219353927922221830896206975466029259448036659684449224764989900000,
  137454976739527673544915845788437295542053767089623013441801729300000,
  290870601716308106638935597629752853094852378806678840399151133800000,
  399256448541824300155467478378709495281841848682374283170934599800000,
  203806642850829292606945588363675203293351324398728483879047031600000,
  117955663639247731752651346657089285251175807687720658594401825900000,
  89396778343122189593579572551551062647403839212555351800180757910000,
  74257791160959795107629519072194841000004967029768520486346919550000,
  384850997221568205792329850023238198282744208049457587658884295700000,
  97366180168374558002580345482927544387568026973931768402605851230000,
  283415503514634220144370582021009885136208875689437187995126407800000,
  123670195019076646029615806094451398690473328667079703877909858600000,
  116694504410301134095114766657027255782930306604038575852261186800000,
  134792719091988699552702373228529591703018083300844574940016420300000,
  60256669416746775232960144168411453585925170932123642724542991290000,
  98393888842789359501672508115264934917204066914235375423165806170000,
  428438886881625753077656481104710227559112420515783020408438181800000,
  191177190654798013390882547333706008581295927018968663767164688600000,
  33485451295063106534252849143268139861450081309393914957617814400000,
  410612411191106870184411106763941841650899095847282135449402998500000,
  219039985248497536321636079567840458485564603836583942377176989300000,
  65044292862879032886306649251472799556534193280972379213738676100000,
  132819482627586329991839987596782830872094135634419756778974849900000,
  223305853762450130381892863266966662015976667296762596401435219400000,
  251380636981340090918249632612752715949966441845799469727421521000000,
  438140659597697175715245643848872901846642661879985584674239582800000,
  143183572522290550543483398170266013122452846032281024553779192500000,
  144475939872048064576810426857311257269431956188957218557997748400000]⟩

/-- The rule of order 10 in `JaskowiecSukumar2020`, src/quadrules/JaskowiecSukumar2020.cpp lines 778-1074. -/
def jS10 : Raw := ⟨10, 67, [
  [7108211811635610048907787386093626814632870578524399622361704347000, 1680938151486082589088476101833401404113529231106889300091756512000, 910432615060082955390513632612716456000719643983515064768333378600],
  [5790076670015544963571349745444308270869078875225384713696707868000, 754133419096396519627517659200776820528351510355014580764595918400, 1931731991654421260728802408570236975518811258358618917411811098000],
  [978942952808300078003645004725850284873110721762602685507384281900, 5193266649058177318974764179649440871981256947171351438181409479000, 3520237533382442663330838283299329878594837362734770066314026218000],
  [711742779743134885710536209942238107114171286597979902032465724000, 2990859942693232188941070410440221796150457102440760116813938613000, 5748644395468989169390372523455235519773461542616105206170837683000],
  [178807490892937774505369320358780278320155663665597884211300877000, 4111564572188602778855327678491878854591070112324946349651735083000, 271003428758123054490298238475050561408599063321523178097214688600],
  [37141359332596491352722655496418935197553235395241591774604746320, 4870271497277897483155443994529463389280219187539316423556143309000, 5086671624419364346483579357197554157841436258181459246408611199000],
  [1653019287626687380486844507644914813627059567768955668211118184000, 322142586483131311944403953123429420711378987317923834981160243200, 1856060969044481244036797814988102264309268344584854768900783904000],
  [1548345938765296421626430717860054414865726211234825033590467592000, 1665886064354638243444945971418996896075564917142865436787657694000, 1008521679205936815308281600991028117889284550676066192160401156000],
  [5053653467106303479274185383938458314087081268740825198360955051000, 3052749158008759082276318680344486546427923121839982362904871036000, 35297452623257170630319334924432281050817306904547299449761939630],
  [3497214515955615496760346260588544849419325613534073828135080951000, 650406291975330678767731752958035384452954325621425447583000819400, 3704875867283166915173870490030421172605273633434806814011896414000],
  [3621294571184972829227254059626640251849505864984984016471876449000, 2230479437288030695318829187613275567932461492283787546471256709000, 2111222297561496661636489164320209667624623609922302720983652959000],
  [15190811552245174138813372635268462252897091786031861978047129150, 4112670915387675025713904599037289420172341135104371374715617656000, 4585708068459480919837753408576349186827242535112347020104559560000],
  [3676710158884832666862240529471356033220649183235653066999431911000, 442304309693195164345551640496301276023254055252430766527071425600, 5653369031608720392473778334077022688050648878817626520143127311000],
  [497097720547089070477436908943083300631574552237455146258920056900, 8388588477211602453615991092078635203033676123710590041681255267000, 1076048046045897609644176647400988676756390996948248604752960334000],
  [1325393365313179790323415654670833976623362347374161193007808555000, 851962921160148442565565183863861166264392924259679164330808934500, 6044123655429240881367084164889662560965007499098151091272309454000],
  [167930550889742390095867751349639187594949136965086329761075694400, 1467379830061631921189897077641740630999877659630696207099099709000, 7198942577861557185229197026126273392155627202645717367173457615000],
  [3846449765100088885536218347428621600777403154309860913547727615000, 778308544281304525308667854548659472637342407678793264619710294100, 1338208423184902402643288265287302326913334367233458034434718690000],
  [6107193475414290620807891699836531662261837649395216207376298300000, 314930542293789613457876093121639821210524537041453884399258654300, 256459239867768448237240072679962950787279286451686424979764153700],
  [800098091809266271117698151329691471966777037720265692756527201000, 9082336711181266954642969503163067887705884577415937218734504770000, 106069851164333308490044786399173197259276576557678404618856487500],
  [1722115445736072315007491378429883276940690311309153800540971906000, 41711369451297766379924938069363523698704190615404095536982979130, 7881404292621583424686802536771287076736295879517277191852997488000],
  [697353269021379749365606412642337849526393224940888031930695503800, 4653246578925895999088767008531587262671447427369542214191927934000, 2797431303256196034724596185913337215025266436873970702646801525000],
  [6113701604897331833028745354140124450586004251648849463757807593000, 1367777657504910824098692069887049793789691953399165481014760290000, 511401890283743789159241570693685815513111115947123458611481437200],
  [2211161924187932305698738294389044404475173550363053292969937503000, 5356748817939830288604508713004581523463572568050783757172897877000, 108118255726109783878773039617907437653496551404183528953671444100],
  [5754435811494772631812024240187675069516845840766452066336532426000, 3828233507637828580933477006164800564878963535556624351412378871000, 177643675730773925559037807334902382499364846047834131787801241200],
  [1158392818921408344671135210165120016812640538278932885550187169000, 7727886692399550266539963438569941152155120390565970022721197987000, 242195079409199688217399912509132572525360421950820583532683230700],
  [7827988815314628696247071643319345902302983327369215096523096100000, 1619283845747259307575443793724809374685637814149834059039417947000, 16173737233016120673667340519857106322218334284542095273034000180],
  [4121634149061806457064051183003741693807233572227461279041436246000, 1202901254531915091238958466991348645409107740153452472988131270000, 95274339951231127595366035656859813360560758347288340325235448970],
  [1814261795878509974282293896170620749566399795994284776008115889000, 1096295391696643749840240712041142595230514888923778329952743282000, 3301733234164556862477745176062423262201038270984170297980115401000],
  [2928680693443875462833559957792428692030205578795126564077157823000, 6537012944960302943670239228143164683483272016724092162793476660000, 291479784247406729623513048206292335422213071253121198924253028300],
  [4907127714152918576613722491398576398418519156455366483087025541000, 3114372654169192432706184770112295980956908244155986238497159607000, 1006675664676695487483131957105923392260704799373245533629892608000],
  [293215616139512723271617226090116730605025745486376824362498813200, 414023329173425733014445370237165285779765227858013082090178457000, 1095147189589663411120917581383432448400024719402667129551764266000],
  [3276033530938000454673270619384086362113263325840971101462939179000, 741494887285078243057653902124715130523898765103165484347296159, 2954875351026062779485458377170862420287593430712101793637233832000],
  [3600178613386471691654159132544898412451299639847377849194691997000, 5012978987010694663072132926742328388975109892015213448859839098000, 432508226806463804932973215392629464225451380490810326792083424500],
  [7755311879383773430270937981768526091299012687316665918848211661000, 301485018665602556641963056415260278110585148689908758638091574900, 1481879111466897465513547485573206637507235503218163772022391886000],
  [2126225190120122088303919172508420852637098930036575182827969232000, 4825350362748294354019858845763429775763967906028251929832331477000, 1303547520984165604741314756520779259057180994627770003766483029000],
  [2443494082536043011269385470348641736278595792598849970050758802000, 103183829221147624064793476346507688682041726542426894624779444100, 5903498037553033131974899841913245870484881620089713646308953745000],
  [3016505415459932273377266653694185200561547290803001080161095410000, 1430011264098975329593676184296898571222384542730603122912796668000, 4807196239735930076717974568489557185651445404531171144605448864000],
  [262051276767974055092015162655452721863728765656185564176645392900, 1956862242710102687400982319002794479857905985381057345595190743000, 981613717356904877873734465288973559996838510958928826273453434700],
  [454997987570612056455579823297395896721115459017497300992888148300, 1988251256663947569459979994838224403929667541006550042099840789000, 4768646629265832671007863686005559528848282059447223757428895049000],
  [314383493935819043459929563686772866658251935485482736485502329000, 359326317838278591264622987585116076883398837516334502103518790600, 8977091528373697584153306877760535579172056979495019433631778779000],
  [291222887265170932169619086459656692265960673057294627996730602700, 5751516278394052786570188775245254820668253401198529771113826762, 3188433055232422038531872610701494087045359660805909906368337873000],
  [2272222363946760462916301970717351834841380417909534595369421094000, 902056725553408257810470703780368844933429008882752808736220641500, 251612240414210961890505506908176343243194603813187352255093351500],
  [1773693932713253145188377281677045099270130548164876774612098672000, 2659421383325723369036143777738110183925941905701906537316634208000, 4053675049542561021390756081243557387571939452638377727352637988000],
  [6431484774270714162818404844479581606476886595283773150493257596000, 428271260641956196388301286951787918886613878952416148027019037000, 3113671388220656732305970911755087972366150346187277364526172329000],
  [2651387752094785789482438315429249109373470858282691344024455543, 8943497560407246800853724556068632032046289923180418023405180308000, 342172350951809896655775909314015655373824085428348233247419381100],
  [343611478688745488798854659474872656223745595391311821790414341800, 6780058688832242725957075357391129099377125496089713062912615967000, 151425513695827357220529478342161054386243137565944900553096116600],
  [4999879882641083497689310302232335155771817189382129424075769607000, 1742036398751961850827836525085048490323883211461041867847057303000, 2886008529574142066370523299422091267548750978074497884498649506000],
  [4444501765779667019726812946765990003858948134659725890404418167000, 4135053284871942811267394493320920387760980134460305595050983983000, 1419288711528731365671429580830130122472198182456738984573719305000],
  [943385702418137148971818816495041433487222493081717643344609134500, 4872400695815088652837806902603627215011951239201840251474377341000, 708137941505284607443549459167333723953029626262069418313118227500],
  [6011876812681009564267122106145483640446308841677109023072696142000, 1683512016895687781052579611373274109256251012366616739736740623, 1454413486084074501375823189028354653283215364408824652009009734000],
  [3249680995582529890844836549620813690485094407459109372572640411000, 2796271780202718883096770956502460010479835271509575678185561897000, 557281529108646727243715972135335699297542367033282604031299221000],
  [1089238586456045864910775970128567955255948611173522216784451146000, 231673460679721531420636621725870153384727659561686062035035071700, 4749489083627679835095007681246822369413666157161449711121154779000],
  [453722167712841159668830740039952754299981908971447665096499696700, 1577014452371543104085766893164863270645970153032232454428203375000, 134062255036993454939840640713950948780918429664586992028769241400],
  [206278403148913390237478844305883674006897337136575507269157302900, 3071952605835924977836656534194110950666771369610105786052960590000, 2815097419109018484843873276855831099760996539239282068336646419000],
  [416618045025143355145184731252486432709513920715994250721759171400, 3402925074117468804897049083626619404577885084899609681934412621000, 1419441168969618882642046294149346549853024653018550606900204449000],
  [5232246056946657511119846422051620030215195398673066411351548216000, 171939835068094067678269448389391354860529386571209686469464940100, 3747867167288931105234432020767907066020973863833598689879509493000],
  [9333826965414616437584432597540820094590754172977209156018893306000, 355665200086333328437123457865612073649266751976148511829330431600, 307178049764193372934796491981411049777097106360710032124615787800],
  [368794531682594241475572693857012975313411967392472653319077121500, 1068733463428279450335124681600270812378163158832433023206390603000, 2878274336814129436496156115640682710471661716706935646443718069000],
  [2390695873803809891539601409836727748638167686095300815215926371000, 2707750397116681464325928520694265577247405886026241826084129480000, 4900314794039396097706372230541548648617272310160272058500235118000],
  [98774540167762902076374028718788737663251645856130147873617732020, 515942816051371752562955546221752283077880330589175642484014283300, 5576518513346611325586749959199392082412096453759954671157469929000],
  [1468723669075991388290127659517392096918934333971096827408834187000, 3163196386441845539529070258123488474513037868249583533025172208000, 140964655837443090685862150990444971742869100039754634078262292300],
  [8260093606523856299815408419435394854082320231639476578497096342000, 306167495791246436863107523178516296755958394896651414404839471500, 314637036026320701608623683490686811070183396275514390779143880300],
  [1380115817340293654428759534636634605624381815252417378042249504000, 1031336966538923851815520735133194419715382950941333342482718403000, 7246848432623155669711160816206424915136854774599984528349532677000],
  [2852351403960840420859809323829352188715493647264090868592368282000, 3927043788424667583262111857770940523056274397962051751688431643000, 2677783805703437262527167014997777778822029700172200837658665772000],
  [194806033226319858201580049851169253838624416651905221382324606400, 6891648157458625307683187152075520760498588424557327355114680595000, 2406622508912331254884355844099381500129442281790339467359368571000],
  [1832473550535123868541572615408534316926491604802884277992329434000, 6410981463475119956110877429489976026845679806647903570494050013000, 1440710813942678423956915753632490137024647684983547225882157641000],
  [605493511843967788587723524641888988146793703589694858084625070200, 7035992796137526950299053548652353043674217724891575343707717891000, 1064038967839555490536752502760149158037913386096566798081680899000],
  [5913322473979361808517606312601242302119312190951270660885877178, 5834193040821614335233173122900229363722914231615364607937396033000, 1419049463214869209565537148762376729209386583851411195944300446000],
  [197382202205803145841259131554924525237976506342699890726508481400, 1983391941632586244477041125700103834422682142685818728489509212000, 7814887334628181388639187208745868177470412841275257028063638856000],
  [20217951217635067101444832134533217669406170842179288647425145750, 265606896774049870094782784841734326879623751991580508439692831100, 2569174707227898888427748999601522473181436288759108203892691376],
  [1583679664182448762395640540406282325103453944311535946396743630000, 2740685756121609292101771933517220222937352990194467802373855161000, 2078803717179151919946260024929504954627109542359313996692217508000],
  [1164605173320014452424270761661283008364428730683154578938937611000, 255374164732954114962318459677441795377839955552522185318628273900, 335456317293547293204991135921504228201358210251712667376384756300],
  [414332994179814306463397227954212490009500727723667886653225523100, 205559406284286325483660121233392457538209733266595496171405436000, 7571094133732397067241018038123226330828463028086558062289920848000],
  [3572328788470244855750315052118116481488544076440767648014148636000, 61464777334794758275710604319272643785329508425077292719100785630, 465779255700504556214905340340624940053547171256200278611118625000]],
  [130941001192225911844910350017995062773645075827100811562355611600,
  232364268442544450459410631808738788763127001012746283887781248800,
  158879701144934078777576506401384324263903992321927533813055329200,
  197029139925291508191964271844577741022034772389980759151305806300,
  60870155115520629987843671892352511134731422198560215942612580680,
  16810511093043874183255906752077848142035305552681125422373491150,
  185758175795591438993060406752813432839977471513885309323142061200,
  258659485047256981008179474521733880366515035910211366837080455100,
  74298918266025868196045382879041903046209793563718564119547443030,
  279808105781397045068868769946924844603621651711774089566887310000,
  397743106074694144989229564915755153900412292822315442744997349300,
  75782147439984054796713693927902796004074676631264264893868602970,
  93429310289290434986490492538373710483615324361118142556031237500,
  31066647153829461167430112144066899730186899347901458764499064300,
  222960392583066985524139641934833327807418250278841434106358662800,
  93263274933274371320199385472794933268140149045376966671318404700,
  339825945050728802737233177123045684495330978027073973361769634000,
  77405253830618733571246912443297408135055598214071923493878606250,
  10222807980556936187222358115963970384275486396482292600872002330,
  31584712640255836771883084976849187939222973874605090505098352340,
  305175844620499742863251516116462827326646601350082370409966222300,
  208421583972557840393522227385057867549194919142055493284973604400,
  107918342350895594585046788053958776407241062705766225279376313400,
  53208751782787647270494011806727029934093345353371237788790696390,
  86956685251635800264426009287091011002361271630918550037042644950,
  35598178068562512744452192389570985521695103504393066019197710270,
  86596613547201851843846067490881690076215166018050099471802674930,
  332884040430397765178442551304310590931360410908790584151441445400,
  65622796262284760209990191108868802337022665488607024609058045350,
  245083525594874786728581866732436865011393671312792992391392316700,
  74213079787744157982897113909291748063733054528417779060825875220,
  83861267242499865983553685529631477016417733774054380482338576440,
  140808470761840493870384847214137202026593124223468195799685175400,
  80821088401726275308224985569077761307906669763963815701337150510,
  323199578468694330066801815193576398602406188022188573816529037400,
  90724796272051611337852989569888941754554132637303979955188467200,
  229206911684140494147658032357999824777977594074088814148240236900,
  102681519608962841824758205889440574323461417299797888627419466600,
  257187414584072153420885549346209442294503689800129491543603040900,
  39281812985419841213034508427080931732912775774659213123679070500,
  33857046660901091583232204363767556526513647032052598854309683660,
  98859590235499950787687865445854914031196438051924731703175519360,
  361274972395152103401476413836665449383029470201204827617642339000,
  37838247969592729007013846683420048702032878513772306760133863510,
  22283163404585558601617917298784163462664119981746793636571909260,
  60333234046835526954935270998859123954050809816733978455526428220,
  232148598477992589398536630103629970331651461972714343618708403300,
  72239212399219668249188499112920309476991849063859689638088715560,
  216762198118419475533798918747310972400718185036628284364556812300,
  65216561617285920670971569147342564154927404868141232619164217850,
  323193527386097755364746685182028193824963071961284776104858064700,
  144301473923800035436320296734077353963169362441713866220297368300,
  54215483403461773392425890386915256949937024823110687598611551530,
  135457897808562640761425675688356484850998338105932120061334022500,
  131380726063402456525062367345866848334755941484232811473271704200,
  102880832307780848224596396063196066669347416917371876775306901800,
  13317330487139574567333013935750978458915557083039378867857382810,
  200733495555370006079624677014396876341846042691408001025922282100,
  84917149996748731504551373044159869539737741269628061302077265280,
  70285749956164691925387279945787392409413285023850419113602107660,
  118299853728404777838463578146113450040660485651630770018118871200,
  65145044115713512661024769615428012196578534537871783118633359370,
  131989551030418355502461566980503897947332004933155187213591167600,
  280602646278701348175933546015736161497955302644030368606823037400,
  79622366404425742499587248170394222558219575758766065784417142900,
  148591816036919329291404169849330818043268912376561078485805323900,
  149896057693298004126257087282980291806193014660088294053594567900,
  68406602525445965959283441369785300023934717889146577620581349550,
  21661954307135873787957401822350146016425491575827607242987486640,
  4963334735625753645461228002763546323902138445988204944566379868,
  364479214739948878602452751790600457787422262436189376093945576300,
  55892270592715119083865715629294712339711602992083186672204925300,
  69408493672644680629445944015897478192982169894036641029108199180,
  61388940465607614225459809137506954357328991549737248277885043140]⟩

/-- The rule of order 11 in `JaskowiecSukumar2020`, src/quadrules/JaskowiecSukumar2020.cpp lines 1075-1451. -/
def jS11 : Raw := ⟨11, 66, [
  [771184477823240208913116796329397321856200199158246907345028431100, 30149476635775709133333550458901435075024852989332373084075394680, 174079620317015995628997755787616605466599773047355137575499207000],
  [539439579554752608788884523755728977277967001249399115807656789600, 404452877552081177796039110690981968637818714019757935187137424400, 18874512805062669082753552897033163957343578733933472042464110670],
  [645757520465285451743046551398987675527351504894340041575731677700, 2468748755846532657745223932759074102111352801448305271471219961, 208388525680420460928745381054095382166310603995741286113199066300],
  [35206867250910605828819645175140722765857586686305548987743448660, 814674695357489335887685846272026732243834171379466491252814646100, 24980334075925634815137701965113511538507697275267737565405931710],
  [202143667520649522199101773984772804957517721024931056989318000800, 22980550715343346849807896251892428348066626047867145280154181600, 456996636702335749369739330293296937824500904476401565644166550700],
  [28709462926826182976904639518219795471833911544777765761563496070, 165595710768352266380592616877514841565934976153969740559923285500, 803273315480531127684193274594443775847676540066312471966491569000],
  [141931798748882889690967963273438125284283816075381994344453025300, 37474378133749342571976518316117663408789019096141713488541206740, 262394060027782822986729661025361118369855955743563004441615986300],
  [270122388743190010259448970531413983028815290453737831105051439600, 273271419323451026963368054817355688859538237063201124981737145800, 268925750693521426014954238994783573948702957340568363563563831700],
  [251018391068873245160823835582718458417165377898963598781612937100, 72094393510054992891945198561458536953037781397054235031845951600, 532678775541007763542169060194359378096670489684661380695285326500],
  [8015049556647654378154130639620985605784657450743764440591737110, 451735313172501196884811015559797534781359799449457147317534561100, 234948389704595852996514112134034052192355878248179247559189650600],
  [125611232214661904922845486873337456365243052987812239410592440200, 700825962749978613289541723077404079392330166786804068811639260300, 136562426608691700713392173470889804098585385975982607020651410500],
  [308299152461192647779988523143394260135986636877496750161012531200, 9474230997113106777818460899936754715523476641577711761737947325, 253901971967136447020312856591923724278362276037648051138662374300],
  [289450536294409354713235706707910534672874552527246991268147127600, 101287299579482284528259902703521280985855192993890468325633129500, 168094734924809082594015894729223897813428587919072714349659548400],
  [483149250392916685620271340941389822408553258624281453004799042400, 279296127839811641329955616507326873113062104314072719630213921900, 157830469624292334236046920376219758280421880460139091553924258800],
  [93926781513942231466525086029357705750818268348689206423766212770, 294975229465335345480193369983177439911860158040964285458514211300, 355331029405975530532943767672654447133369810563251377381270822900],
  [280881662159444558478380661593299610183504326571589654573315977200, 23518360349339504677068053658999333919250021776302777451868381650, 94788777825783315272721926335420633047221379014296235220351799890],
  [23439761203146644028636978604177421227812765717271834471536604420, 34535084403350958880018722541467110655346084488431321403599981420, 916134170617309608733215494324638906735920509806713814444840512000],
  [555645005196962878040672877413901497266749743888603519392619147700, 163650772131173611458967273477093213496082498886668800181932263100, 269604138503832510224079618511539550727889334415136901185458109600],
  [177322993507837634116682478409508456729098287912778717352943333500, 473784751619088624230228398795259814526781174659130540008735010600, 226422120325091236302212879379478859042360918838783846918644559600],
  [144175911492444186169645920688148628444739507975896674766648566100, 522067582444028574644627427555342021464058331548942030574343998800, 22572295722751675308226993211160676942495537334968451773318365350],
  [115211177549809887329713429938086339026422794737692422241526607300, 109012746648940875985264520797646794654142677429352352165009806100, 98725179093727562277418808877022771406160793011136289319502716360],
  [473317868651973181818347500087015636156348799690664286225750759600, 151714015847759890180628474611701040546230864330215004612248911300, 193813647753748833402910988364124819699804575910694042012019914400],
  [512222527188220078508905458257247123435936196731860981392867201200, 28719566427552803285470751735085526197709797025050810370206797380, 113591642215924660595746049385506544721675953842297158713546850900],
  [96204677945224707238980910250741645709811297376499303938531860440, 569886714540261817866920802539154008995001752851969281947302958600, 327391509621996107235950558415332896885801022185167439934595044400],
  [307657160391516008353008466906129995539101690038583691250142889900, 24816553006698880719481502495384943387582624020358310445933963050, 635581703244283174405880285881634611289968380437495285592189577400],
  [82480948888603683302794541227518935619553003988275346764842526820, 110375760758596518576348301811925939359197880315336485782635375300, 377603996814200783280948513364066820647684825328426218576588064100],
  [22312616178277880989262570644829674279394621850102744971270892320, 339637541774684139962278142956681169228922842025309761542123861100, 475148862347027000279052792408829928709419634254464126557120149200],
  [127194338733586801029394996315390853768651103258312480503612950200, 17097617470621552797185714770943362550156952904103798508089395370, 834306938660672796412992261275624876442848947218040124117295606200],
  [23580209723993884441743218560453786709948860908843240091616835690, 239954131595569925030575931076592047594521858254436062692094730500, 293686963185919185707237148830191208935734670777378065422304161100],
  [126132877485423499324097987765462589805727336320527349029716513200, 827729796998234878835537568393779439327429421817924542233050688900, 30366275652447153037715559920871753367523132554178897716662851090],
  [543386047040068635242461388163932514482785629018617110867337274000, 79018722164231409188029520192001787247968528778650011981106092300, 288965388291952754908848186347355123958353902986315657159547878000],
  [333098304330796073959701752270730474836095080262709494078277086000, 127022744562832199727860100451611807330134758874731370235905249800, 451595720885338791852624893873012172404026621832655499112439792500],
  [142868227350987772914025945586962213447894075319315744252722487200, 21174352303942007242689043897656972812624305705780719707216164650, 689763521380865357549855075446561732901410906159444586737843008500],
  [14293678102444836412643747142573945171946448165752408121997770920, 163745879306136074324218025714835856867059059512404977690024448600, 39500251493601511571365896168438533709231506519708373191022955860],
  [168257214981281685693396693463559381176763929768737005405395921700, 597540184230500027956876294385849529815964757856325379261058045800, 69705980169490571829228009179111847255063078566473103263230838600],
  [137196683065723231414039959711951528596022161047590547322247120900, 108501148082759486550150973965574445017396429105734777114880171100, 716471912756905051254390673182979632538918835421082897333707761100],
  [343489892636919368230933598227822446493077336353633743665765680700, 479058724871692859832040386946091070706246275079424845879672242400, 17255650079845479053456129403236483052580142336156620626185897940],
  [306691309067315600049427419384774554414051418958853876175717533200, 382289085879555073831426051229633480235221507211485368938517903500, 291666031120305485065925965722285957232073502436898704835903542100],
  [28807250464156035093710552377259743151879198379494711743379329610, 383312273233856527556924295047207555652130217636938812226687770000, 3557852602795268959135671887772093785732768526467536587581799626],
  [273446145397616084168133655918350819058658967920382494909502258300, 551327032694155171839801237360539112803555920332834796969169046400, 154324337815933376028650001563786060232238827860553917378005867600],
  [26001577959626183180942491817233575923161177976370189975767751120, 536365999276620396217800539658766600518295453920358863800711684800, 58101356509930102636940655508471108590158723794565706645281662210],
  [31310451133808527901822450656811680189471420657851091926308190340, 28501979442441433303253972725455385686516967184082668711042435950, 823648808085688970287552071424571165668127695275468156282630342900],
  [355061934545681610719659547525550625795826180169928485162837938300, 291707428657239658366290053352721561095833007583856381780188061900, 7813939611909787062963018361415410211670414191388900507047642994],
  [691605469266916012252492628604559198875250491488979939257092452900, 68197701691966879111869731460040227700931981189411952447214138810, 89906413442127108594600617673883478028120880966574505197363599370],
  [9405227228336286660385772485439483165679745951342958266414242383, 45746955017375170350831226579251876528272744908601745920617090560, 414099309081322681989159214228496534152581815153748036342958922800],
  [23255132453904748910310689305764248734070840294361731262549873200, 915019828059501526843747663787470343618180332758379750711264925300, 32806945745177203184414803771080317863606253159983615607517947750],
  [702440264961588700760192569586237123913499639677098657992450395500, 9157891497218531872209559896681889941808054265456230358881044922, 23111234039573174664414176534264244408578558645867027088289245930],
  [787983124705038746946622409867545949302238981439060775947140891900, 89763202417867738927453476983203463402469037355376449551027837610, 2915510329983943380822271489251762290938007458499396563581316342],
  [35053062960690433171574363994604487325672421792340362921932791350, 32893413844118061886960539833081020775076455224950732317949102550, 21959727940517558022017485903666858082595693501212537495800472810],
  [434530539486262845167826131562682796892852265815719843885137033900, 25292615209571488422962085727964359019194710657338950799805741120, 21065053356866531854270023643174243179995761075193991986228249860],
  [146876024522310893111148594811670618350775740411192085349368679500, 312993000146837229392420059795865414965963653206454338381133561600, 36325031737106768134278859314117554598261352062195554343700806330],
  [907654818128354503261480643889714029660488481156715403140503481800, 43836618078476730419793724252196178630529851600179727792881719830, 31432504376643333781656353796254983286911109702029908384383753120],
  [114922602677344669603884355530710752572725276786232010505780876800, 17372561595524409508739418084857405836021261435304800225457868220, 88193335056638151603919257016479076261479543448249422238949750070],
  [161942637306232740815422015830376872254446966630518906003033324600, 720116576093354988668214962880597104332593104541361981200779318000, 15926580976723308337701486813042557867373327840187027156075533760],
  [25233036380728764138705300416092285828489700007931041885061299740, 155149708646596402105126509437798183578429621552045203910557827900, 724273974425022178224055443068389250107282086252024054723590353700],
  [520052988544047412808386719379764946554979603854781590217316509700, 363665988935348739649685082734320563636663826385102789297262143300, 107961167137698022958390241774288346662957286024289958132272045600],
  [348598284107937657793972397781104085161045566868569193300317334400, 121467251205617964195544817719464185676090714698473267354030001900, 523443566060930415640194214698512568519325167691350024665591147900],
  [867729476024243266847146670328386231617436699319444933339658051200, 6252178054674931616065479330196456868826736202489062395138780534, 42409483427574491915690808791542903687926248964315814295958964820],
  [553760381384398693753205750274442555542321606162881086661184883200, 102776478420296773160734465143775149902031719375115077199982725900, 19537291657762027579414866554487018257526148820633351424425503650],
  [133582851361884819083055049162797312630000507672129433454909784000, 424904025908364372377548034266508712088275395314377652059597884600, 383608557846322173441452803552496607027846397648117717630722418800],
  [105431511160295359158101258112751432964396048342066945110379394800, 643534822154244835979408841537643615247069743115993492218243181400, 98706774763143021602905351348408852881056789918138391786023932580],
  [28117284133717343562262376880917135223784064299000380806903516780, 110890421021322858139886440562530887102343909134086639626296390700, 202061004868490930027738675881233312192160733366027935176265143000],
  [386947924866330985303753016305710762816751087538012696512707112000, 10909165218869565726339819591120878080007686878304465123424862520, 461826511210971549301941620964278438809477778194937563673208185100],
  [145259476356746304352052539210816254657274853201028755466891350000, 234911361430609445838093619128203736295333603219393810939460137300, 517425956285856767049540204321239426802455576212825578971632688900],
  [239521668999070826901684710589482467416918881689497411852553841900, 128354964775924320106674647566179075839365002434942973529307096500, 346340642065539261753980594494694668949785948673790325987584917500],
  [287790765267758187580330575240980536194515543315692767600715974600, 136771752113077852819416199086347284084712703143116828266143546400, 32575076367135517087586104245545411399570780816607971741115949800],
  [422238381839457519477516024206614609688099798240553128182920962300, 42917237666677621842204397589448154874890753669802447178964859100, 284973941983708864293206735914154078269299008534796596127672820700],
  [750772293893801715539313854978505183490331201978118633354758765300, 199552900709034594422217305119570466336737721027166451400307404300, 23912643073765792443601906786721958327270987006884463187206123000],
  [24298767767161547527716287802968165845425209041511596918623969450, 781292298193432658055995393537714915079767738892075186320293924100, 164364521007659802749497752415814734676873313244966505791001258000],
  [318909750901157812459755271478736702945736005267061703396830986000, 623796677577883756668448488051725727003127961227092152372960044500, 30969433913046913277183006481279579736119644819797337511709020530],
  [338391413024377089623105455144566215643827735477768548215923311300, 454050031755012838585827062944892570541134423697542171909716721300, 103285379536159045779789377735952101338397326950552618415240376700],
  [419393023646009756244057332694602935650566800837651133473173352000, 167853456304575201972436923164712758286378951893152611481775222700, 95826584901792632971742543172869667363059324014462752355963120390],
  [343125601943447928368295243610373733084910904318265297782885727300, 255238185521329699987732864602135273647518312422712537965855519500, 350746087406255896484118983681076984510661740382631289547004219000],
  [9312024647538243369826863870214518126032991794926764981045908948, 575720005798770144217832755213268536156909945400299983067131597700, 386868622874034281073466715700540409214367223562455822483075718500],
  [710551229203001273157773016571538899797062440985733475293993042400, 144349549150834578180377530858831230850290330559357330329960232300, 107742325195422503360655974065120291919227739496429276396770356000],
  [39007920817473344329238131552769088682648428349273607896152596350, 556871691287134417253150591106248120008386221393672143281027867000, 284649710486833009573440585321608711723542396833007260090237170600],
  [34413366386708231076594755654027907071855982777729382015134093890, 349065313744471406034077706414068291117851269136284091378858648400, 583784831929274290328197962572155298390717802218421390493117247300],
  [30482936103575377910242530985725680040810109567165751262090639740, 689354579857344228241957374614038645928199908336978467849119232300, 5360741363266648993419229756955980290521192373643190372626730332],
  [149359078771279288472119509293564176598772915829021206921596606300, 220344917465877018179061163786391557583472282824154897565293105500, 178549359594873500960744184520870467054857624948973827402979743800],
  [30716426468808937009979344712218774568720295596390034194743165170, 303979842649248436552566709991620851933414842075950288719144820700, 104100814728800395758580336816640573468234900509901971177414088600],
  [8511440408983542995050164946299476539665130723166483237214840063, 158711067239331793027561757605247672901193017452233057089921599500, 530954542707787487825889170560823585402687867303188142905680868500],
  [65399620983518019397808317746675145255496398560580518645682037310, 14497888533002320271829759965227282755679184395586981881108559410, 522226958738786577135854958503389120752807628689318920637673572000],
  [19822233385480147135348834008082983470978158230897785200043411800, 31932603045940630392440321174838479921127813738988012498005962690, 680658414281380335793674220058249893563487793733905541926908644200],
  [279865292460383972693728366159015478923743085106362741240753545700, 337317609456204603005622995336166612142863646408931889642345257600, 97495340016112871168451704235135106463488466109374065893386984860],
  [549764340110827705806295880147327962669178274489374510758412747700, 25929410713816946826202273467383313483945005913182423317378561260, 398878370569677286313972230572795335775402777858740170739302114500],
  [562025615609201907841725942043807370920848217525932281791294891200, 249436818062170008567796825168436762252573823817788537021196499900, 36028379709469166367451186523391332999770453858036149517291905620],
  [89216979965616418576336956535659145865469198573840816838836285080, 114638401437019911295758309373415019616704802169941184055067243100, 572182554059299974115317105905407751559972913507973303788003174900],
  [195549430066187139396846556346812005130835088086430705676072847000, 32545788012622124285492387706501755971111918473316792318680845800, 7923794324134563559034099305925430941370354987767595071983744437],
  [14164519920845215292980821476190494310663656095508908377575245920, 31370417332663679126406800487343820644387338087600463688177712050, 123305288904082602813665329414477204739778721406857918243532772000],
  [20019464138805672992795870526575811507444479699281319862746972620, 700121816352029338659873273001414887905155878068452793175909125100, 111653313014469755980409427348737804100102004484365122169821556900],
  [43832033736204037333203761486560428607223202703095711954156798080, 4485252771218634152239824982200871351844268819722285905253149980, 268197719995975189405041797355258543058562827428556894458829866900],
  [171529730438565469126351785508213349980805814134550710360977893600, 271807817871638560969289567204827799155072960320844910732009714900, 550761375264204434651448332912773415966335922009861344903344934200],
  [97898045170082096000772723265303256314993257882373759066960034510, 157052189386831146655577433453794615178633355586165659688671897400, 15266431471566375979968889673107708879833080993383966118447504700],
  [95203749770050551603538318922135405741569267753985035981595164710, 441026578450119737926396457599948346536443346567398599162911908100, 160565555733030674010083154229539297096189902210631598879749127900]],
  [5550636989257514341880936648225760351924480064326615189811110071,
  6147753214446438768490126833886794513633878746004918050157576898,
  5159095574993549908080693069037324523947743551078872484607057593,
  3962322477394990317114735984526397216574307206988701248703560900,
  12241608910712074195034580999708403019440433561676869163881329630,
  2084868434742420049665294716451498973045122541270355865774048397,
  15011787199239510135051617682886800272230182442480126787796301670,
  31155966392942235549225638499658333911594494119947183208420805290,
  12185456096949846725484175946128007499134403471902363952702808300,
  8082313515216951192503246472527171158747523975951046212177541688,
  10524636089613851580568413523822083839120557920417710476867509640,
  6993275844091770716292971849416544237623220472351423024440101093,
  21418842920139957866010611103708771438074267925887515544991799720,
  19848508875260234282721255419447228304536812214983486577358395250,
  26492223657304242187839004356372145710660973137351132709150202960,
  9222775411517665207348570961244621795909211149390626169704045803,
  1993361086264612301895626134850680398287403465683272126382127374,
  8170583812742500421884804157306852037473272649665118787021004139,
  21900354386581747176414840044069230961778574143300730347431771780,
  11971858652022306269487379865461526570295836414630566181633400630,
  14631354823788703419745502479102649817786546161699250657593358310,
  21713251714513927773532536490902732801235665483153974516037509900,
  12993781318086174044283054122316592800605044520646298966160176990,
  5524217950502176461001816456728117701231960859251868115893767798,
  6452899539006407324094976149873183656474385407715379757393520567,
  18775568688447353639321111049371776048766487509637555138264708630,
  12598684998195320265305176808171460178514327134408904618341517750,
  2535822373515776986068792917734755056099940046861082796527825475,
  13148881574012067642657424315134760140642582446189922019302324390,
  3092139090153155795668524997636442992776079094700384104550490463,
  15782561920038220989859280413801918209819711755518612328503719450,
  17767636734068450633234594284746397297394713346266356168268594420,
  9093208915888955324990455690514400560701946417560684483828181550,
  4315066142665269268461083430474670291628181340237839733266572526,
  8994064821018319167992924764084560125899864569842824870542911123,
  11794743610394439904880176327111925299304604914201791010170150140,
  10174512734967622469293310109413758373266554536100957178763371980,
  10305989230404185297135745739572553823116752600713652542857896090,
  3171680957597384748669201149338692813155005056812942060397173909,
  9053841925534956955451669838408132963227506367672371939608817011,
  9445082278709696944496636395118599202186621750115334853121760956,
  4031861453377401629365345385940567203819001785447929715475993202,
  8585227019103841011437568906471007289392358265057333200443615486,
  15345906002800935627456840039310405090835819112751308077399739180,
  4873442114530441237029600348361562699598477909656334775168688132,
  2139005846149799267807439138070031678591880034168810542488619209,
  2967915751666871867803683185060960109662114203056752202628553995,
  3518360883127706738984595844178926827200655386517259554247005333,
  2555050102184611162124307200258504768773154715662260576218282770,
  5251457700557674837070232347078242483597957719259041726025709665,
  16760177389538911196593342631030292336159041212255922036731101460,
  2324129461087942195889480647743631849696598275876390172201562160,
  5132517445510792445665226224773296687967555565328758161264939899,
  5904602908289963657946955156602326218283045384152825302454368577,
  9639573859123944356621784355991230793242217016972149721927245495,
  6352807885546679903434158750107641168955283679129224764004489953,
  5831270753073525413629303314627665478411243334216519809449907163,
  2143787009537775983407418453754742822446291005300626770288315401,
  9716562570060612544944728458932817134545231450087394421961498085,
  15232987305488543808778544081175981335404536599589284192267241960,
  9002001244582276130882322199841199336425461100250463745893304350,
  10869646878279235671487550625121234599925706441918449834814746240,
  7634593126404574534036082234176584920521526268277525305472481575,
  22508892404315398832065705756841157251324422012989206228799710340,
  28174541925897749397416131597685490118384382097741143057754322500,
  15536706494141024473118192211116803841865224469144641764938772650,
  16992347528480819849010478808942877600000316558508936451003475310,
  4510819570887507693497898526809844465699106480852185706404565805,
  5114557411551538706382020698821520926632106864203379956543286166,
  6855228583780265907860302758622733084594245803848294040646107476,
  18824333572090008294743224236192444253196381504150866686031770260,
  20161229932997031124958083235887962961749867098350416552342035920,
  15605862225913244970222032363257137185160951939797016173763565000,
  3366968831028588145257242398960535750922736034711755513911563767,
  10189296294128502638291250021233789874663969053665346432016806530,
  15307602102255283244367391613700349849825483174299293728797887570,
  8954105230737795355543356272685205152428013541800383578401918789,
  2416023117016776169514435900648726151017451802983858783264897432,
  29309622636866343343681455805659815177976747338377843673764427590,
  13954209796251610075006846476800622812772324793517603907854894080,
  7247126660799781883442509481142161030934089061042275337303657853,
  6234291478851291726204330945206109849802977217395803469356304566,
  4793693342196706519060028623595206208007521878019676662574539949,
  29005390870142043854137122076110119201829184950120938879406735470,
  6338978068872099580738465256369675032343203731419849823533706246,
  17653852825963710546774066554217379436560429324995153670384234540,
  19106954978143812150093741074541385836969422308559112931884352820,
  3301514457098113084032465715950887555460351866999143184501786714,
  2812761170989695415232791928191399517765210793811637728869871727,
  7858633577998087864197418418841544348292577634475781430050048701,
  3185024632215935141960043106983364810527244169707947991012096677,
  6548830813398040562411752692806540144230673394340585508354153924,
  5784493645876048434802736422402313881096744266675653129560949184,
  25050000226148099544441451292871786966644301873965081439733296690]⟩

/-- The rule of order 12 in `JaskowiecSukumar2020`, src/quadrules/JaskowiecSukumar2020.cpp lines 1452-1920. -/
def jS12 : Raw := ⟨12, 67, [
  [75733191502772044120165511841677874862257234743868877732850233630, 81027043371996820313481843026428836912347841685038942204047135610, 8178475633492317341543742330353775157237613903246388193456057368000],
  [3356390339050894186284526202240607842509778431567088277319403868000, 4018660308052447675228088855629864750121181892354442187094547211000, 1008052518090979717442039492837965191052811910180786474053125217000],
  [5046879605230297884303977046501337897438712306843936447872931717000, 2717916485821852844544871504445111446946724463654864357233855618000, 266159566171102401624900326224025938321787111943727647546109922700],
  [2343486003779260965375082072202382377292447175177754096269366800000, 1191720672739488566483740405310783371598296052935746927734549397000, 874843865709177268523373596861929580607959731240722933271375219900],
  [4867802030219838504804138808708431529555683649174420414301154400000, 1410023206082576900559717445576065530787653031040055490976471693000, 4187664752551392197544654827513538275514693484237894876204644630],
  [4392880948947025500676195969285921909287112326193386069867905782000, 1518941689092816914268848768358382039319272751126717010953443852000, 4085674360628064241514902272032102456868791652065188390642733394000],
  [9131465045672992302935313188340556760862075283946807230939801370000, 413539100331185604891406354954352331165156371644726433330915952500, 6325970093631133805954270075992189001430532702012121869627655641],
  [4463100620422013219330101839878227576680812069625862554794246175000, 708189378553093486893811857770152608764584012882320501748248414400, 357063823905087748342251418217235317364872263717538693086442724500],
  [194730841242047135490606912617125803359877479082272464454697851700, 8391776222800945083414717864149599623533678175500508632934632110000, 2288590063723560042403498932154795107027549039624805687019144439],
  [6046176966995361159229207400081266817906138374314477220644244966000, 119428609061451310219314373920515481545151677232074430211654512600, 216153460478344696124450317620677798218093910345289587593329402100],
  [1037512321464330872667334870838798732533827425757379947665185425000, 2518124336201633824444523448700307560542707874708547327668340879000, 973550675109028101274589212076673625658102164121125171826748191900],
  [3971636905794573395570622222093016171730091469697235789612622005000, 97218536968535595224634708623654911938006460503380514915729790770, 2825693088792311022987838216180213395464758355536447186109101631000],
  [215297224879568136660481947261518834855349094875626731705144146700, 4478165274633722642369181026443586624206445705535763454239244018000, 898937591138756641838334321247904722863393518640774202263865156700],
  [626907466761976625670064365349492511577519712869237292201377322600, 775522263717505575582385125527685725059186213199812729133621800400, 713118564667162654559079887913671533400099899393197427193570687500],
  [173179486355357810655939159426760677224887682504874444799149187100, 1541951808534945699038455917855643243017883735240572475179365329000, 4504665367679892401206259931058373864115274087954156655442949863000],
  [218637387316797303368780896830706343437124778154740637262759243500, 5768445299230294157447282302621960191208049902858043945124852015000, 6913977017133931377299626352407372637477251277498654921364872120],
  [3202358608656336595108571909344459000316539632723089058170378245000, 6645567488633414065336327254968095542285868640871475199041289310000, 128830711662297175457324060138024450490013811462917747919863499400],
  [686800488603233336803347272861645635981138026934998639897151966300, 6390898459493830716211576312676299657524801402600998499535390092000, 2628573414222329487829477035517338020618089250716153637085678615000],
  [3188844015702966051314039922076953133616167792028466837083020803000, 2563279148827533539606939449759802426224740870151765919357221767000, 220541315942584765876770773016455083235782239412257194190266256800],
  [225895789765103240523686653838071646637886508766966858903649784200, 9377204060474156121716369034850055203741201579558987249982433011000, 197434646897494390507440734353835458333245558111010798298923038000],
  [783110551528845419357702042466787556926863828957442415747568529700, 3074707858431254670349738221801779642579511403048304249371545687000, 3550956692902213567793363304971745700084115432275092863593245607000],
  [2716451688507565975328316658745807544178052611855045897647946004000, 6221891790537599447816269369525852314587762206319162781475743165000, 314088918418209219019997836614434370207516283269075741680100253500],
  [7397074542388278993196030056489194582809414191142432742352156263000, 122725934596783404355313660980271649180612169193864854245139757800, 2157413191478024137619864061605270788530476439512438584491176647000],
  [5339960387370612681297094947532042242347097901701342456725961524000, 281457350783348126831517887794048456195124589078983480944078147400, 4132940105936008425985573660156462321539221406831882377130181619000],
  [6824242549708069233567966675591291677397555272680738752624267695, 1137640292747117709240797569056858910659276369197356977251704678000, 7166715323629420345921557605287674575703244871693655671553462879000],
  [5701915626602876137002505905087833146320172856303711408600220052000, 306605883069563721765283221223626252778458901784450152326247613900, 1246885351764930108685417654160883617964027248936418069226711466000],
  [299596661444104464966200440586668562143027613802081368891716186300, 2464499932207717716395816351542192036634955438211091120854705910000, 2356837957374230309584425830960276091574834997640546879244372887000],
  [2727223353627747673188195046113814849722157016116353892592399714000, 1044235761373312069110381098790806706438294788820709030761101394000, 6111929978180554328433647772938239100954581242499266611246164832000],
  [2528047498513282837638014413842408996985780600724048659451287557000, 2498259561981234438659393306389071670879123981761258736113087187000, 2488346162853460280855375219782690618325666972525182644895747080000],
  [6497798438391258814016741591732822110282459676345775418203197390000, 962281878592555422760066030213169907351483252993861093249800289200, 269843718257276702312043882323359524344126272567641650752895673100],
  [569947342322696968888518037420664946386915680641794685288431453900, 4360573676985982751073539804022998162449028320864207209690526452000, 4870807031633788185911701191154849564091920914906887995613821154000],
  [1470080731838995899216201604644066921403229541020385986199559119000, 1091053066424883510421539270520493080736797647815710149028369368000, 6815889653149101762087063498465853419641722493965378469230565159000],
  [1407540134025785858709428941469676075523736418238581198113663662000, 75034969466068074231874943534351416059368337522520320154322566120, 7893156528387471947019470252463828675191314792733139680286629555000],
  [2467424148439599166203887767081568746760739104891106179060464689000, 1251505020940540222299581302944422416343268828995583238804738532000, 161706402411716505056908785666746677878449842393649933742260111900],
  [7702698273071400797379583229948698076588156961846895172739305050000, 5873779377406700462688609386606338752086910940526967842035825486, 936227572802709783544255030775559137175822640287114401786760670000],
  [2220333288859927512388798233337555417953774628997626771814992691000, 645222413977730912238488515428976144693406605322940727112069834800, 4067098130204821245364877662408318052863352974123047006359064336000],
  [231647639036950166570637829539690050550014512273278336425362540400, 6781970453492861123902620961132292923926652752802139399334842548000, 552524950379725752920815171375410446327372337300961371790539700600],
  [1153811621675991454296991750743125919701480660556463200381933534000, 6985845293762786514697148714556590891052352028221229987147943438000, 182256213296252928772308692773776428154625203466828827219419688700],
  [3460362619520863006169316106075266169556036449235894730141102714000, 200426451351580019170936095225857232787422850651402150403582448000, 131126468745129939227815398856924200988743770393678355412021019300],
  [882576126657643978386048033523556586803786102327724272988149569800, 2218907431948260607187704949252869844423303076430606258898518030000, 6834728563778517377605628429550215062979629849742500300038602300000],
  [232841518416028004673708240800568478122878369478891067037103841500, 1131876532546426526389366715520268713728485096860145922783768769000, 8352511859305203506691452533040294911727081933980478885180526435000],
  [6346903922139635044082104159994778016475484014825551856226503059000, 2176445844200594579544208067304715772826850722757614946627320795000, 1312497605983451704034309677781796968825405470643375723319874614000],
  [7454549730142180101289789914511336009136812054271037700844762818000, 645980311330607775112164001989512790561065567436838414545523228500, 1894979700153291757252918495559419661709697418107705468968735825000],
  [4182665806607064654770881076457709496569546913361545113537710131000, 1607029619518292849289282153429138842189262093296887068213774523000, 965033709019111989406190926431311822765400564592592644521078308800],
  [4179086868664544976862224078413950399572407270783241321619862924000, 4067574654703031537091874917993863608440882652978289285610758273000, 1323210978870586391367868249251988607721734030183288285646475107000],
  [1974444466250253594429700283560642856262635809612429708681862516000, 4720712203528455189012060141991065920180084338158344243078682974000, 3143430689287406794974951148308611923318140738493664425722941846000],
  [941665846166992693879210864524752657553208745017518291672204078400, 1576674107654040585019822080071292999400303819149364568474818944000, 215772579018870257561227472945715875471729439752030666574903364900],
  [2848764897543504994845317026780232027275544396950761328827392464000, 4671964383569775843686730621658144160390690951221556755731853866000, 137227409351022715568950668087227575300691640746240846240370531800],
  [7941787805907179559119529754672539765682687416733548983414843675000, 261708779201803746742476284990002081447255371716130113988622336200, 217010860459757214240530139605338946403986953162398069943040791600],
  [1955902916256252013836485532588539879056271577414300144345250611000, 260024741090052207581212162199779286595798476966615871870003375000, 2355013025602733684775335167519263420354604885797492120883829279000],
  [131550586024479715444837853792430194845013770058039214652344199700, 1995186514188924262565933586594404759907297806235760783594118248000, 1093275565845199134451111221068994860186364476663485842001011989000],
  [116320835881201434916450989118792453331529901382190056275812615900, 1446609216224161802186210852456755833536214199458080291712758070000, 166342916098809881481224665078908184930718947511905545764952596800],
  [7710667847104975377913552581651432170415010150075938370548502563, 4105659428666379320753341227000157058240708046310595161510731340000, 2749753955183103389073633133421221385527561306688089144268743537000],
  [1925909847140324323062153129409638280835493088395058745550645275000, 1879454180127334211634601454834941012498402591552170737343259908000, 4563220166156197114271757860499843040284230537791585477229724097000],
  [459095774138762346024885602901435103067171898179032770369552095000, 2211138175930674569903932145029682574722231384753328451493019002000, 6385284550185903299623101256165205767544153512891734697797156610000],
  [2209716933436543171468280262278753778491021751916139858593811068000, 2656331286604849855187354996933207016908103471814569316512776078000, 4865291274357054941959662874083594866040219181640184233255502557000],
  [3574707778694012103715005353953612006113249927403728961944467911000, 2771418019798105692035527445439097395740947732116912548547786452000, 2947597002583992668735991321908523402053032527476923415851730022000],
  [1834661942572162027537466457145637076195347261772562701667459862000, 4354309443066392958023335333185272444256359081198433901577484272000, 2596147955284586988118893207019842289821983899687844447520661048000],
  [7786780894362586008676973364061969871670819761606004302920706014000, 682455624391678644513004166745347367696751482309574578256123477400, 902906438409151900562309233428985003457152079129009640331614714600],
  [835036849543830616517852916054259676100649264481938944491700070200, 130280747130120280336468082855884514895329417859173471877919964600, 6481074404001489492396803258806112457719090478286007991405801561000],
  [4111811646991075373146871315038328329411152642956756783150571105000, 153589060740051897036598807778999791258849735154444550037692175100, 4382626475841270454226807344330319632223574713784593420128313757000],
  [6626595119522672366515299141311039089359329753215365069108253968000, 3078481341740694606890602784106631102702427109333788984700898310000, 183603661464019991838322588398793678194873473887936317030995731600],
  [1363574870412026335823852628338947151742579251912398143560999828000, 311935813395134796864074923674271537352846976482500478429895822000, 1969136453310146632092735733960025511259536097869278110717783636],
  [318901705934054398863878163049682810959872900625473183053779305800, 8415309916463650158762894120595832128809442148258789755942786583000, 1263691242321863556343245421047402417047220776458503422127192844000],
  [996510588267453587864284772467163727200729673547653074275181165300, 7020901884670813040193397537475955544175613463282626308194202925000, 1221274353454344474315290256564044021153637203595888558114292326000],
  [4012767547231727103439061199818486199374930491277356664208335635000, 1001360910035592549295685547001716281751332244575705885186262403000, 2991513048410059468806885109333490180786263515892791365410025273000],
  [1110348427231385295340527042594040085268905486941232426880017061000, 1442668515669939676650090051313559643398724528733103420289311380000, 3430318222425007204367502044417667600526108980897573748270481995000],
  [1132803365591721349110076407524931031368665979889643719680657392000, 4988523951725763475534442076083548341664468168728189992208049640000, 331032139176880199110013905182959405217086422970927201352252351600],
  [1851251285337305736153882459395326804332082203989855476347106271000, 252579256765310140577363034833366650741072365819213484369537421000, 719599889896839372367320790831595129211882847883286769199886109700],
  [1681180841912250364053735040776430800640397554476349985517606872000, 7334197178616813483913704202894181800216792080053912923382171118000, 970735942756263045286025864487991896760040725107017792614036492600],
  [328483239001842742067929234829804121980373291760279431101516117600, 5872821684491243071114099952187834650719053551130475216209769719000, 1752584104734631969455113144606805416568730733992395452221259043000],
  [190248893243111231595071230085997032889011868903645800718916905100, 2798401617940674785591174445414425372751600200089453322243377691000, 4941255477715584002694660493096874164487365465488556966944314560000],
  [2219031972233327747060293474753928189807149183133954516174536694000, 333670869712978332019062936642572228967157913449845131951895712700, 5889748193187903215288010480019799288543772373070035542573803860000],
  [1225548818823874048115528228482420369743379266173852887555503076000, 422158983363180858121341540005244787316544395135582712239681216400, 8332743833227930199856763926560714521476600296085402585175720919000],
  [3373458687303550535461848135736067934523765637579549742781605891000, 795668533103683238935753264375637326311520850124123012682491011600, 1975008197245110540130005060879133660833700647160039959044595432000],
  [4281152710074780652254071572196505469598417452390942952238171307, 7339455993998903920323073406152610653941348101999970072671202092000, 1948635591947421787171736358278927493483136024877023706648340645000],
  [41610744587992756045051615754898438808005077257058387899740025990, 3032221849371555321077229536969700028485679298286838696021133453000, 6668028244623116954318459557270468778213552790727326025425974129000],
  [560704590133224617714505023539497329040907345938068905909847234400, 55940382979528458032976518718822393378960183922711122471972064330, 2223406529843133767708995761418743663479850289534914679591729382000],
  [231331445130950034113161432632003744911087514361464021482716218400, 177523213179897538567375916786548475983260259431476636221992251600, 9307215353220839072722647163353914641990610469456987764805386509000],
  [9160929177005886631598824312123288029069337679031216356759943288000, 95666132860676944716188011891627371068391895102309353022606989490, 550952849587992630400218188639198250096144058763415446365787355400],
  [3765542243935160914332964990166457609395490878519616535913031486000, 156416009217665326516085229411950707852154516697869785696586943700, 1069885872534006189619478108268885467716265010785289469123806181000],
  [1088463195364638618180639217366041205353374448892912838831031219000, 3375193681181201098137826708524532348150386963854599347163448223000, 4669907364435750355866130844271863387937863348562859648249644884000],
  [127374780029520972186975239624041667293844038578129038889135679400, 338097848679664776486769811986793442411914817543188568007935304800, 5960419032826407267710596171902430292674471456955365027344257184000],
  [166282411865436418850781396583978496002922136564192266238311164800, 801653001582868566695995991376566724383823662791870898046367552600, 3086704023087159015949228682391878330773165308065663726856677691000],
  [280921603585975786897317088733737665584442842685658068368396653500, 3339769318301754180845238824535957947702568605329183835961577898000, 218621886387901741414089929660603938332466317056887382242805738500],
  [4191308899598238304499841351849141646960010023837547349898281247000, 3267090361518041644395189006623484222327889085844218771019695534000, 2534116251693332944299408656585192145489058674211224339779486286000],
  [49833246427595463907494713946359866862992837711766815695562585680, 4468429161402591869653746151103997712455179345397546658175179652000, 4547159327902080606025210754010139092700163013168028374062996123000],
  [595905165521034238718107354585849437655728819639205113265127289700, 14655840018535747047492104660645856108105681129193414235396180260, 781429728669404289898045052955710622517760653912214362427938745500],
  [762290190363615168026747446871616567607329029729000483850490565700, 1079116202865749393684283131140028338605205600234250205739683592000, 5788337891045017751812412895611414986580309732518928891409001957000],
  [5675913512164523109425769021821878364990855445454735139005328237000, 1271247946017582736353844222905152827111129333625154613253737943000, 2580324750619346138162670829984852736222458545856466211962824648000],
  [2052515363754559098069439999594753634139140550556998766012150598000, 6321387238300995238808879865465813098103818077937853691109512118, 4445746048500630030033159710878196521937470673272946095355816514000],
  [233481561291914141307993586787005807693102854498415513074929211900, 283279994469921590282805224006493012499477383337341790096665901400, 226204498252435790561808181485604822738701985241004835553404809100],
  [2396706637906562781206571627796597343582640167040429425695715595000, 3164881510787529057344497836663404216809542426384610244666517520000, 958433480198563141285616634929481047205689722571972386142080427300],
  [8406680663500320225271119417408255599000926768308369790970852761000, 1190408735079882279589660399499179360909177247649376606280312887000, 371600602384940018012592677929838486213765985644820811623834980000],
  [262260464666128232507681984244877441910744468320896148945798969300, 8301816228420967335605763675729790208457133711949646815893966130000, 644330410514177227896885309002201244419311892083265414221202005300],
  [7297120825016440239490742263755677807378639159382751293754017303000, 1746232136659962438422992429479530772950739304544362043854581653000, 176138021030448135316240178656690195975931347704872154501713727400],
  [4552722515017930146456035917240823772824152368168616332701923950000, 4878561633251922722436370886726938709621089428500855425114229269000, 564626177701234515718805922083244880288941441133153598901565022200],
  [1228778858886704305129007506607978141792156747084447969620184128000, 8233040849673012888030878042895504798564483066858859551275700644000, 211342751847682487222344248162113885508578876736158828574481678800],
  [3556760652003148572798747578937617011842486958850250198331045499000, 1101523291408858430856512939870517598198960740094306102749343534000, 4585051516202008473723290574532698274681560098410878479229738126000],
  [1485086395302150772354045147095631056029459532686896395597816049000, 3203604969743520512394872444436692739202757402636628096239054399000, 151529886952198243535817971191337826982709063580613259188638009600],
  [2551837696452929938397987442305784728684748964146333722371085814000, 5659187181215239208419713183455416349788748791956263428063237322000, 1434162588791990854442590112629358552123987960249842993384636798000],
  [3017332462818711065708551701911449164513267679451057509027401637, 6169014026311836779495168015738761118683910082133509365506875789000, 3705859753904056227735212681830276924793368776958031321539725942000],
  [6048119359801534973588105386070083178581566121551066871484425034000, 1181670758440676460832599708967442076934947564844044815984358612000, 1212318485369729980985969586974831290962143896261279280456127579000],
  [1812357648993201687634635437451025137749270623319852471949179337000, 1672880683670824844865432468078992104269755388284504640782244862000, 2075403852637664566152059097244578667303825191418954767501644745000],
  [4556598772841737549146655523705029912207393458583701424080266740000, 2234487776642279830395133017291555094444725923886575025996453991000, 1644001981099326576283368266206757401873244415355076121103663534000],
  [3168082747637329265437961264073022942211469318022010650457239885000, 203917006485177116412449136094817565764849888213575256059435131800, 6344121132733613197052488182997405625953097102259253892288905316000],
  [5885725878152027872889126129557012093845835789611998559660725876000, 2625195507203611314694793456846002992815324012550680988254041998000, 842123353741541198288385210905530006667141999678103084914036963800],
  [797570881273635433521937856747545467578513907927190255213262959500, 869236541596505842688127796675288900096824497670517015467128542400, 1857122827844711803758959074218098476117870336738258228523697376000],
  [458216947433561200058061291340406607421926296159404001439003274500, 5087280563308816134806737419520763410044992096326119571767710351000, 3188636370715609570071070731089868647942188274768991221642282354000],
  [964913453453841132825414656203275958983450587619832822839903336800, 3968927090452546717305416071315444273117265460702698894607580143000, 1774829177149692648261564220076306641223917537998385058920870717000],
  [518173538346615602840063397484720341753540595981115612852893134700, 456682991293276050676635595511055451395947607518564049364052535400, 7885720971549357475516138991960207000005462016493797037942499131000],
  [1574832839135006327759993318078009358294663047873626359221193113000, 5479580515355089666600938859711605317926352046802016718979505482000, 1061285796767766132130088227922931497965696023630584436335223126000],
  [5997923494452987938699761731537680275085017157621793672662479598000, 295759054838078442950486194112937407383349363551435523587156185000, 2451540278487019845108398612871018526352293551755404648355870899000],
  [758873247965198394565698050216393980920550455194275531433036973400, 314653275662152611345200142475816123718091376148546853500387137900, 4225063065398066163091134477564080414560855670592882091048777930000],
  [4813940600193163606904057614537727816648076116942950670849623514000, 4330558325519025312444517953414207263054003874540732901479996865000, 181006516638795346258325387814297517896401768057419521125946116400],
  [3574237421419194551183708520952335299468038028324525209262499920, 432673142236201967718083306554161909802058611381054950204847578400, 1411390293482130051073069006010118421571779466613378988269686687000],
  [54932620850555457404821021009514138644511628923741263278236946960, 29565375332616054992554537098580853309950547211090984863085767600, 3996789787135795987745570802137137139908879998686605086167104155000]],
  [9653614884470391513474125027723414792601351562222352409655816519,
  210128873732952221078207513404242004003844413086123670873639359200,
  130643506225055275235717674078451386663212237320651457992162507200,
  150393477741429976610241044628814948798535239366274909510487396200,
  26409356934737573617224778228123881584516477084851465491058994760,
  37897369511398087240896995323075670589301299805544372936251658350,
  10536954114791782304112422129743469259009456662583369573154677290,
  85092674196255645152523459623406917870219384129148754052792846960,
  10109286632081243447674301869447230537093112648243186027840317250,
  29969054446740390187645655931238378933141345538259019395319632360,
  165903450974083879120682378553694810900398123801643163411520848200,
  75060757284625024830478533699246995371330160644002503430268261170,
  95326361181147563867450851993040408445972093659680312245927499940,
  61686367549728982439289401569807291135312209280801401316011831120,
  86974727359971068038628580885432557707160747755867341123704603220,
  18303720847357714811864831380726694634914311142788052479723823850,
  12370445052683428811524040011997605564233188842817438892628282000,
  88208437900475287904840953380561205340528162189024434577244337590,
  104315959347973644044873837358815952172647834617751392880890523900,
  9832537285086476102237461273261629370849253015342565828817835165,
  209403992670867887086861181059541400786471976203804583737476703700,
  99650040195723241942593623575278065737381719376287330556281756870,
  27992775770747496680225296604200281811029333825846998348271460680,
  59397381276790604647135638516678556004840158293118091407900426110,
  30614245457392679002764841449419606928697783543871132310756963480,
  116031131522058215029904138817761829797452725127348134741963544500,
  135412181111287538737866131353496254934564617185646135112468210300,
  42745179945043037662845086714393347877145062757174419310289472630,
  292366572582320270104292603741295787594845598172793862757191273300,
  81621720198392074307019356420532135639870762504946156476646218500,
  69441820419376372158929076566478663133001040898832963556233044650,
  127623949497692332217215731979449860259716233543818223659209692200,
  29406240110886538986381763360146359944874310979234417831453966920,
  62473820516329314574974440093151606140654331885001769728413470620,
  21044166497487366024372539859352319178607510451220708564706320720,
  191548195312373316618752472850782220383872376840861036575603991800,
  67154006348633210877052226369013293088466072366001567330857007940,
  68707444078374410227403191515514460950539878615602511563763439920,
  28040195879185246035644253951960532245233106166357237613842006400,
  40386540696317064842774478063774179285792294427356654558159305810,
  35345905125399634499928069610900631301544857938210701122954008130,
  61498549370072079125588922973172786849476653537492353872733777910,
  20719377987473060148992200438769392524876426504503581842641700110,
  196705990959265419544328905751808806333638207722774298387474502400,
  114132536213792603098523390202431922533554396962047682215411407400,
  92175251610294992980845415879908644102988727959218509628484250980,
  58690452285984845895123378509723736832826067506605902986996154100,
  94501940213049842338307536619206426711049997716033201942797245220,
  31599734099051521822817857942983503400405888407411494587858542740,
  125992740232362484588643882801221169375832988388187204691424583000,
  58310012535644955172994747755927767699247191815573968271731716780,
  16419412457764025537050274261319862729376054356137091012293849250,
  51894117574446058797651585632890697007954941579976272348745180270,
  252181733343590370279062303874832737663603974721884131233051691000,
  110386966206678024492776417933215049852677489990098519149547145100,
  127009969189148953097712004960131593222401790366864540759869773700,
  224461632210137828444006660136745675637650750619047983678230988200,
  249247089729582787901973820784980492267703863478590387423756985400,
  86319126828784245821195150042442650306278200972084792165394378040,
  52807998230341811996573220999620575524805842992438597397512137950,
  78247128774443186689941590619343336707841259608938050083629244120,
  22320951893593365320924461032901881319538779272963962502097506480,
  15681282525655936344285147743268378925442212851436112177733326910,
  15576653710326916395238154869469929435538011419141478378898164720,
  112642645701130287059304111237804726659778247619040654473478147500,
  224217191983280521134442817632659433734056853875294444781050514900,
  185014089651967918092882044508410254916047806805547310243414935800,
  122248352996155791467077882639202956413098240560510125882060927000,
  74708301354105258761230988590267263927996073111740452348904167940,
  25417393578247963213174238329916309199221699846302237301743322660,
  111405574551447149020238802141871436847669528070521433418081886300,
  82870942190341350146816945321443496529547411002572576300344159570,
  123581909382574681649916798709447885790651750389256833554677967600,
  19124274250286973246501557434909338545957875226847284700824022820,
  171967790088094945626316306863880847273995281462644102109299070000,
  26614074125118030172942930270224299004623848061863617679354866880,
  21118527151924932659581535151545916077769857365250459548944465150,
  32310814046824480125578361192620478529913894269510854289865094770,
  12872546525101550076527615188103930258640539774399258521142864750,
  11992071881336075764097741292259014491329030688690355486764603050,
  73198028179720111804570034123592951642731716690010265071352159890,
  140468091814659023445645454962126943979145551716616072984807544500,
  39563457422674547681469121372337126077871938942580069023024023740,
  64034140348557424421452102435871046078494599502144868251323808760,
  50096559110367786680303139057290194000192704154527086772144451500,
  44072051568356569293727593628273083210181238857237683871518576530,
  37359273502493868099666180422257962807494976745039870173733251550,
  12755744304463320409096182584207068881945017397838179166342170360,
  165630387463430628312543021430228163612074542345782034313781119700,
  144379490753534285159869846323625420028145506601777379287351615400,
  36180367508599601976894346574543352274830984650122837336719027200,
  14450391058663578030874497219946273455506343980565138390984296560,
  208766368698313944715482782343406636494428499257337173266412209900,
  18014471406199973603304821082610272634454444126602434548059536530,
  43549073705541535831341013805685756026819920703366814529563365040,
  59625936338360662613588945571511190771815826113620761982018828030,
  24970034612770155575368808692076540056665119271554447938708293320,
  37693915089962908018611067303015583155239856503734184662820624630,
  169825328535511783481160704327612747994675304281628360309055578400,
  71197874119614083061092260864373416913542831254076828469585552800,
  114884730809303311817328609200184735414131243798654234108151251400,
  11384573892570841683934083741582394578656529204970609200848230850,
  129573391415451307656424938990751524788674165298795569314655138700,
  179587896489380196072902430854178977567283487646834392429173179500,
  177404338379239991649787306956878683576178533644152721976354392400,
  47925325196910756234590248672886205968762075106243119283701023240,
  97149667678182294854033524813938269320935872128280172340423948630,
  128649597679377512938591510339628799962956230191956705367534195100,
  125193920743379791520751234123269854308591499646005148469941881000,
  214939582011733487865145899113011463654647438897435197000703393100,
  61106268196773221887094952782296827308614223132385081048434171480,
  174108330176856510654838218950558027317296918573550513968255836900,
  103364858193525374257653997213236596646562407292923726912832799300,
  107049752724438547368031929152022111949133488920967174943217761400,
  73044237841803423128211363627959516302807537741933678295715087220,
  19248932176703192669270392408251343789234054957766483156554626760,
  9342024797427712849634743839914485584847560584585063142388440206]⟩

/-- The rule of order 13 in `JaskowiecSukumar2020`, src/quadrules/JaskowiecSukumar2020.cpp lines 1921-2497. -/
def jS13 : Raw := ⟨13, 67, [
  [4029849822335013645167924504872952783349372782398062876902524177000, 559213394320152650871407158263270336659771333801242912885031152600, 2712194777935386889735187758252511120262822680951316638550774104000],
  [48531461432880190045470020400982369975692564975760288402273853670, 3870336508904235719648574061299480663051492495690353500891462635000, 267283608468437988343225834754724119977376244827724019872837999800],
  [7539576333316478950782114523678843648899375680303011560359416177000, 1220656013592209501700354795910666035351826629937294235993302141000, 56679023725032897880006506212361644006761318975346153662114669770],
  [3147151874768807930824718179365914909380442393925123818861395212000, 236639504669771223751356018808031762851780916751250552081951651200, 4457001333729926434595937789811107599028566958762555971037069616000],
  [6541305721853559568529078087547988924095964795998704244358987830000, 365248248270360068043202091251752953433457399985508761057639591500, 2388946077739451719912134087691716075898224136781213477409391594000],
  [9253107621598265803355924825729258567451694702237628783447076210000, 244083378324154576323752319798186935087373018643406627840534270800, 235432145580588123689507992026179099704795246152324132675010713800],
  [38140503737895529539651089395999706489159849829019445594219631900, 4199924800525905824313820177085145489297840163418851052341070261000, 4911653748588106257466472989772247302607281566414613462266218829000],
  [1275416827815340316453174898429706509544910395594611015472045736000, 8388985057288285304569016089946287390356704562425187540646115597000, 260730373354388945853086727067641069247291253873089353515899905500],
  [2433657004592898929318834307885557549356693382036127981663070995000, 833158327966372175064781756250811227346842237508371922964635077100, 6045548024355646815862921024186629530956222776202706169335214145000],
  [2365836119401133174446143244298456776204955072440416499601420143000, 439717036200420662845990098150026588452175904682649017898764852800, 2358067524723837509961490365682052763719205646203127615209700157000],
  [990857584998410812752550712985902960721476194714962998594429474400, 878038785793643722112154394514429596975802025674938541236618621900, 2177883309782537664324390542756195438678429479155147500912987209000],
  [222091711454252975477368665147687815408288600280213906463661132600, 835147588660844603395828178068285314978976460264301512596336552500, 780593604563185971431259914024783470319290245427818587921577541600],
  [277358025137712419448242135614706829025762651446588822322865367600, 2406237085601421473678778190994143022401862968045259190729957686000, 2602995441718530571343477865500041197574113771040675932481263430000],
  [260640408584554986249225823667839136703246029685338342385342794300, 6170692484959878006139434123673541427455695430666203056995651086000, 1223129938671531896213687407457077584188971783677776260377016689000],
  [5483776133508337878472372329932329496347225680779743255913480675000, 99751616505796850657808498463536524396081068251586410523719048860, 2259064723324664214990615390385977731371216237388532469704217971000],
  [2551857129015324929545961189616734475819519939915246302342190566000, 6323279495408989993044709160619189959605881357843644723510113969000, 944991580049002663520962880583149851354087301935616661461692286200],
  [607707370987528222911145178603492245871766475146519283066949461900, 1041871860416217385427002765266773197249756808825240731551839848000, 5831903849613917330429249884623155675399492285851912385157925178000],
  [68870910280379546298774693239344726753973408942948705259699891880, 6494547775419014798370385324421091521598818771053808765134469836000, 283727533666174745690285938520514256223997756608498801285968739400],
  [923775153573074542324294321272474086358802347524403158761199162700, 5666882522128536803933864734721586472364448282666849810158048991000, 3284772693557573706003546966610180794507091208390835970227018175000],
  [1038220577689695046629866040092653360624918976624986142410992797000, 7586927299831670731795737512634377213942677661602859718630998179000, 1172679325830135736716413970173632838132899595408199311777447086000],
  [8193818015150089753937091713006884045881312863739089904697634925000, 222926625794535079556096622677019027353346180436651419837318862400, 216934439037440239063637600817232353053786177204881259013574063700],
  [5290093055284570292769691731273251351361254001190733926037654498000, 1743583158033034895215972812166253843268779791163519776391512368000, 1996662517287840343766026247718002665304687456381479526319052111000],
  [2934586296939319535645167391629923643316557439966892244915729659000, 3500701161421541063937200043859691011013246740034459327963224890000, 17952740115797956419125529584879235723754634208224073192673461260],
  [5649882145149829472192100687524269726831946402698777515625711516000, 2685928292132240793582932433418328157148636803986492839615076148000, 1437855827641652471428216342318016528864385840029922316339916742000],
  [2581840093768511051153888510519547002432051354020694282219436394000, 139148139877813489345616280361701555189569051000040344613417627400, 160184308031314826163665358148533302356885470416287069724084558500],
  [7333391089762890462321665394697107420717474033982213358997861961000, 1189409601773295003832034489705440852971054065141184424649795503000, 1286910814224007344041220369443485853156301999990043607641701966000],
  [148815491726864462257589348053839179068599908640078599625750073800, 2080875953294871815643650080782472615664069648105225734266698648000, 5615606288779747407169598344532366188305432980781198192106499225000],
  [6563448365242419548323654736579080468504665762839687012401516992000, 189629708956841893794629645927987201183383442461273393361032383000, 1090460093830295429899065608927200295480602872459410579223824330000],
  [203707701407044502719289302565034550573348062222860781417347678600, 8216460831331381272713341379410795727059232177387212608402215038000, 251230404968511884652427249757302235899826761115540847161711220200],
  [2519265733226840321843715864225186213456080294996531301119432573000, 1178021061756160101676026211319098820503651433141040291912455727000, 982485411596286641050558014072437940665301224724528470956035672800],
  [1801627755664692097881091421556515779922454006289504759081185078000, 2548986751649479312239996748850020447232549956738324763114037576000, 343235508069452208522209582777194108966777665205486574764639430800],
  [1178931349555657198535564180125967315491004578240737069747355522000, 58051063746327425321131014792436115822483999085209527900216645490, 2711596885210727452839876384426876428817834140713436577385592085000],
  [2893417460129522990327504607532731691826056375730742275147657906000, 6733494143173197463326471972484015847557300810443002021585913327000, 132321569810787502261850075213254301794074707305202667516891435400],
  [993655339787271700231846283681948130261807362847567393940289541800, 221765557648868039717958410997312033030849505337772760432820286600, 8683226708871458576316708026401236820544133942615159476410019045000],
  [933362309186158921456184966914251594111882829891070986809846943000, 7183074630157773905877783409061705494679920530247285319732084763000, 940780314290254828046938848760130505853098585609681792752809876600],
  [4267581165145132698598426309051897831755539276139426932813672763000, 740865662254226576961708479375056680424097024001470978814537765600, 215166725099956394518840153124571966555204596143766416492230650400],
  [3841395987891822796100847658543931652058318789766602700518494103000, 2018768533145531569590036064244355426784436102394179391536229722000, 3753616168386475879256525743641762747554101030287997311854432438000],
  [4765706027666225083994135192191235885511875398093235954150097773000, 147877467482089427140241552412681178466337654765139211022695885700, 1057874397482365543058867108746498642009841153699069287176617944000],
  [3213650989572799139836670043410495816270896759081210854783661557000, 1763436351087705127968490538892433786237661364493388335815106398000, 3230336022622175369191610053622243781015928688454996842917028179000],
  [1024350621730923631101252446704923930433356933362100673152848461000, 1134345843554455563728714321284286769451433790610244190097089677000, 201238725492351178213154445317922267058077225021080424033675761200],
  [1350377562424163231404085554993968897923813246999704833856009940000, 220163162543467876352653735534732015818696928057456127778462919800, 6326367976472450327849889503283490846949733782552073915845469609000],
  [4271559427401216400158555617937761242509754351143929435946087691000, 755758620700787616115380759598938510566751571333422594845040003100, 4006373352262787954860945653192033108297190540038222288435914269000],
  [74233520589926063952879773578998402229439640228970190613237833590, 5055800183058936259163788938292459626053628504410369913639967072000, 2814213826273918636828779381264358954876518740715616444136593085000],
  [8415735070096037313865099845738114642259012433960898027225743132000, 268089557659093720008188693315651883660809043166022932731976478900, 1227724136313379633467424923343961823797627655760729005432764059000],
  [1333141073117334792900671085968959799451672131179237167387588078000, 6184982023463261144584400342402224540426582637767075745501763863000, 2194037991040527718923472849385308185587937512576114750312669543000],
  [6463773759102977965783307947972827398803307158689066786852706585000, 215882882991284531930841407572408360448803469013756889246727427200, 218369592590423181786315462356459560098020241227882680590581715600],
  [6682584798179189759938385117190344303176572838967114562020474988000, 181698586026263341069965250530657375469354209559339362813418417800, 3001418387259552027906342557984778326401029822321829911412160174000],
  [3589348515556770095799259931144541394063181760606854250355206804000, 3287887756031535521603242045256196431027031630271647798515922458000, 2346128267680382556378842388208016058144802350890659331521830358000],
  [260328520753476007472900873843959697244320951139834878641761347000, 153853791937664441462402808604212027001600803798893835329870924700, 8344706038911316003864794910206740197367005973057036177570330429000],
  [3922352888408486332217180617649534500695181194563399730061259044000, 1975428273012422100272734768346726618812478235959008934076347560000, 323721699511130289426050439513636620357120889621301279983276785600],
  [411102690187040139145852814840057453111069874841879814781250141900, 4635598795730534045811929372291716713431502978748338944649857857000, 744297295678213552783911950186291418473401566608491848295152643000],
  [6429592341955441402140017769816650346089982074587058701827894789000, 3069963510519800149939539257154945343318636737378750965899690901000, 30315553070713505444201857861524902058262737004523977943225625670],
  [237112895403942137938217680304036012656181767860935304909986272000, 199337239005150174887068425044128765112280432069775751667151750500, 1686919663073349588875962763314370182316005879559032157300535664000],
  [213530353150886547323852829876333060956594609707976184055540555800, 240707509642631756859029527683961819136054346519624757407377492300, 3286649267285530802179228653399651471224326799226817378881597600000],
  [243352035283709290242625459263211769944091373658553977817070325000, 1326057181158871421296722038796195460551194233021444598639258662000, 8217345749968477548075587380540417699550087996765781148464469403000],
  [2500848208908758147851695611212259627143395918065591173151240086000, 2809930408600448797150265765622556979967680615673773276969973527000, 962810559062879621052002647136483857201514745942579938258708062200],
  [1161336508483467803317176740372620707925086827736916231824570525000, 7906451176427159231454485676826263229394502011111114046345370048000, 167338553407681874180861303088974163804933719591858212260312918300],
  [2773581941716009392954916798842849724446046810781908260155359739000, 163408764069985755451402879777713855263734138173333969672344672300, 1056880399225417453754905713437398087117983039178779717246259943000],
  [1447229790543981636769118467123823758408313891428515127179814075000, 1976335251268660429973434410802430759567590574029606200125775668000, 2382338333404146379884929715115282502113293895583548876927226340000],
  [214796367837682474312892677100687932633412670799801551171032507500, 8658808123179716897034240482551648193160389092200248236915570394000, 915224531830156604996772586943065342078238041275237886147088452100],
  [413523077961264168834654942460620832811038077489659761111631038600, 5073127947656974795858277877103598769814619882072792385182007382000, 47089875835639170635238136701921912794615829622765066713806344800],
  [1251846817122643243590294866469504704612205136604198171058928188000, 1021429768712792998887583558605784354289227593347294597158998067000, 7536582610757931006118405034930534194380349353754686616172375753000],
  [1988872647274596305730474510344784889570395731031414388628084724000, 1095717661207283803382413679621659344673490729790489428257057136000, 5180545120158286449031806711659423563613602158629729111365026676000],
  [871458519318928085876913117052216423362415712378943573454512450300, 792489187658389347706869648503273666148806763381912632048941362600, 7355436933501266500584163216957234751939134926940820660853008159000],
  [676732271900508115767311619016805221592693033963921029536627622000, 4071686220177270066719952402659259927658745229843783396648319383000, 2314662623799704314126320952134889854313153385004775239474024328000],
  [5572406559683179130539804219686519868566054982060692858105425291000, 793146226830048295740736938166846154719383879234379215767970121900, 1939079638854152615398047673954097145505814462949807971866986818000],
  [6204029048928432089193658692334917444619991766154486302708899886000, 2262059784298142467965192874818188116031151358635599911651533675000, 585530363637214565093508264240335527602571907721539252320857374900],
  [23986273887525800721792905242225520285665514023757385155848827960, 1035754803073205584831860973385834699478974130824832484537931628000, 4386454118043428480450555953154195322013242786855191512346210028000],
  [301339702209822849451826941232459117975774842463327852572004801600, 159997451743420644290025449983222204134941833973844992830991711500, 6883742379704641629462889393686359420169261587619732244206299290000],
  [1927749023271596915716707542224232919508338432281481294387500158000, 856308626278572751759472386821063412798834860753247918805245743700, 3911678239781108832820461348233979687503755923045074575611785390000],
  [540744571999307088161056121770718682012575621175532082225524288700, 1433735010320705258051481434015618310711115566792008608386384698000, 4062652981231874431204795339669106866703135874155575094985164854000],
  [1173581286841458998022057964137425207167002405209496972977241743000, 271605816989504466563211519582140802271231422316498000308812292000, 1105942460786471693510117718791136967606970034194611410312281823000],
  [3922865164013944127533147177029767573869572204652297668501667013000, 3163455700938890672205471115138026367145907208653177692287906013000, 1213857478349844903914756451596657452991764549325793017846673626000],
  [1285570141986206702984823919757226427741173058504896985910787852000, 123633747109230698754730725379167378183763665645421705485464176300, 7891861269104634968590147936786728058068520313254330574696465303000],
  [158692907372607672329161387358315311954089276599531032187666689600, 1816586228403906359380734023541615289017297371275781186195492742000, 162495448999847921110256230586874482215668830933158987500454332200],
  [186445785518829412266095156285747214660094433019269887294428455700, 2426167723167551981992698129960194816241036602045833624790808081000, 6581010911006299876476876234713999241637507702596798502386572404000],
  [200030680691175913929045892685543534201783568642846081816157197600, 264919827864420539432963678646712194310314412489708180342018074100, 9272118949938697583441246602620336060550075209310298392477229912000],
  [3152211844179504548128012744299219049976975101687289224269832000000, 4164414735819372807692106669015018611524520849012669039390877030000, 424434979332024436672699556501392107929681528807181609171277254600],
  [114472453286892481779184400374533173892365208592865977595635896200, 5356138710618880037709954357852492310852409055864795430262342950000, 4383279247641362059397478859242314555792001659439145146703443529000],
  [216259672309334381816091651761766588791481167221151924603173090400, 442541834403930987932655728495835602644572454374516167235556759400, 92561700984852796311858173362916450406503183740872578188520395180],
  [176760778244658766869224874604421626771591968485091264739090561800, 125740626255441971610551309295354737677567563199116716109773799200, 5132429887137185293257404526010412911791572289873773535585150958000],
  [2219495866393964897379040490660360322162072645129256336691930319000, 2360144401871644319999846163924320921374268802691072172880425854000, 4621492857150512043225703912277003766806648253449497473312258490000],
  [232766668372696154841026478552409901141795727117014703104341578700, 3131957249220535975689495227287899927417592202521437581817146843000, 6504951421463809926748281475149019582303603155139163846774986910000],
  [4192106024863944872289187258027890503322402728850279643053508005000, 4730143699818874876241858091462618524065543316564624683360697384000, 82710762052425837071223760961999698365320305129649369936092515200],
  [171346567806013414383061301711426475392537531635226808682531802900, 1150527163382372656877306258797435362794937712016343122127718249000, 2207725751376743851374691627282306052738841026936089147649281950000],
  [2172263610561672039039542796914357267565438430922805159124625172000, 3414086357992757058416686975294300399697100069196316276176897582000, 4316520448014813735227014409699963069686383753008212615641079017000],
  [932692875230234100017938502425743599663395328515919723816028488100, 3019885316244721588051765686348463119422855828752460294579060775000, 1260258013855673156090274754136431055903403627641705534712731949000],
  [226684560715767866804781251128660367595535313418749550631424946600, 7345669396913100508718846550105911006732961962659482932020045453000, 2300230193803775930747006294734700603757285459210840435787892518000],
  [4443798014437983798743059082960629368472393679392985945033782675000, 4162472778529355546078757683513187698752951816807782969991113518000, 705325171267450265230362709491708651898900772873394437331291915900],
  [131621993067393557553668453725462730826787174335621258105856462900, 944487859844509621730292959550011719165217995728461451789839260000, 7707888239626122022261843755405194678111870133054320592641794467000],
  [4611214108243424138861755652183842480910535592942249783785207533000, 154289216054422409649910440134603908848716848067058172743597303700, 4946500422116851288397061808693610448054998462220263375995584599000],
  [4470308206477216625514819225605881222550490203597937409754451624000, 738598814884717838840828776211343502478879860306082757669802447800, 4678740661231841013228283825381159597053592244588599012984778367000],
  [697194122280117554970150422543986004048301389043339193233551062900, 2916491938256486166380543331898162760365693488396127402878247488000, 189239536095987607066001425457048592120093492038084771756454455700],
  [248380655390341955134443935571632348156800085168860932874082483700, 9308203478615271721421099821030931626187162141110943857269992545000, 177057566421951615891755108455224105598253580908221152604307673600],
  [5822533058112137681422562173812908886543911266146588283342630139000, 1164687660150405949813116632412097206742372381816586606776109152000, 2819159982692993681761146925112297271670121107673382744345082185000],
  [964318133580478043160515137211183298769198691479943736934986807900, 5445115549286874377468554816257739114075831024667362033308935324000, 2284281269191424200829001970160655088002676910993264878422173057000],
  [5162290956819030129498785007827654940716135609756284156302130312000, 52682027008519678159062683605770103422989185107927238229313480960, 3578536322427501718353421978317165911903710508522024815341006406000],
  [786074744394499946667814285054032069933460323681129164431231089100, 646732305271951923519229953030909386777082273979386109566284648700, 3545049537527550340886672841275792972572727231002388809095284349000],
  [1694743367735752340953656324970151601493109920080531425586816729000, 3889043114577886395373290240188327346641955865864376833225479398000, 3437675387447756252996016952941715801893224017343687981141591926000],
  [3982449630749531398182347031965340591883803640070876721648932963000, 4475828132982453098539543620746361523853497888153661961628912675000, 1400515508901202287252970472776879728218006076897440778732286395000],
  [1613591426290698644312395819627495626479064212761415280031331570000, 4447468025000249884157523279254293199659056079809714607564005044000, 1114250416933921203327410088142622455517776645668830212513376433000],
  [1215659684236085692116635232351311428702186771250098638615879666000, 2418826354705122473067116593942818944264403043112215399813910307000, 3935270692079265124795460287419336952127089557268727336508854139000],
  [2489202331457709192453315507298007980445039598667178188345980501000, 4723090038059961139513393630257294273927906768028981036325365444000, 2545991037462787895142925966310103178413257034616536689087866733000],
  [1857622213318005077862987208456826588948261362552676362134659385000, 78188639455793043689303266829942419984268067447921083395075201090, 4287936482781977919305654087737625613073827794876664513808320233000],
  [5900309048580652206572838901509622864435361630203013203733714726000, 1125306122759713891447341835444736263853768866017630603158176286000, 27709785216539965529517525919877396366528148448997400322225767180],
  [2100994905113329642040206419347268864270030741725005068224123457000, 5911289035552244484785637908555278323405223385518748537031627082000, 118964787783508047262942386468501588710161619160557583647245592800],
  [5108721338269479181126175866722272516977081138393446206801893511000, 2739475986446046945965028489251684588720756005088448248917814470000, 177812951776926469008220267008976766361048094709084500424629986800],
  [771197237384135085610563961821412971427378190318197374938118790700, 4250024379238826171371081100001085467941210132358963128951534751000, 4657535689928028273296414205831966708468141138015427617266780119000],
  [4238091620680213467299199482941858497710890025862370691583613234000, 2823639216825693336854594954085735905570704062210556896314089088000, 2900449514493057074303910425865442639067716549906212639123693868000],
  [760859141009509361889685318524920492675951038679490963874434462700, 286321754689874109423178875768418502642909833330445168072772061300, 4902774116131312899588260555185977795678524232864338906197225998000],
  [6716739686851087803385839955286164423578788023976335823832548919000, 2757199754029882544387580635575219484040866689150102450740482229000, 422623220637450979686185528327141301710762210093815468966462775600],
  [4418630104182825160898641935455016514540291854353148166645477075000, 1909297748079172285338425252073296281695110641848727301941075997000, 1239843468356587925269715574040530634082497251236789894725178515000],
  [2207239209336195623258142682564126674015364107991323956456643153000, 3308182521297616705361222517372691553920861558008314967316349543000, 2262496721182368638557173351073985929759271509731752249764000786000],
  [716147722783866413735617108067549031929621003660005616523307147900, 6707601238986118854089912894975735734551616574132382862571156673000, 157868985128577932890227991764861819952955829392018859593290734000],
  [7466185290935817910753484970408712949994976724466812771850573980000, 799223960519598869304622199688388436310329922985409314176172489200, 840161046796975412377344805082989948659990749028079452911247865300],
  [2487115477642307659938658755141525846400881424594373688686292949000, 6235301946915855614529371596512685752032887728871805027729795365000, 406633991318030087580797066268329101897756210144284875188667300300],
  [14711604624913080829176512794311315622396441530399824264225389440, 4073874156344123733663868375045535026884762502563372552392055297000, 1689786729565603528560778861377011047769998536645334905573757285000],
  [4483099614645295547219049895775908190142439929273583269394125408000, 112499398597505421548773718230459762605909460715743082550801450000, 213451209058774254455130841261991788842824051074625851199836869400],
  [907540847548632785578740299494941388274869214816353121787639727700, 2126865564784830235629106131383386180476950445491386756243493052000, 5875960803550138308565684826245589866670114110996983911194238146000],
  [2498077564825854589587083192699371752455947705973932620947587510000, 1687173926411141038116298660447049105496797727853529197853608281000, 30443343222472826333247390568088728860242737677778963012517072770],
  [2650890003108020268466037026492757536891437036082190952346596401000, 244609092002455794455957333683741319937190620556128686438436893200, 6969528239614627981149650937969539949586133362218099241751250848000],
  [8296381055235041555798909443003816116658955214864382068893630139000, 1260307006344858606213597724207981479782479876782791649984973130000, 232078016093250125115654149931558391715011138719403445937705595700],
  [1169862835549642026728909644761892732947782468067971182906982543000, 2374766179122223908104493659487186656104439081207062258496768282000, 6245381915162592838984140624043018842975556369716803550453294603000],
  [2968471006335101664435893949422406327359400557539746994399196831000, 1530394216279042886998338374583377644122921734838112674306208260000, 2074315845044105665715213552141380934757688126114280633504963474000],
  [31828817707093526177033410534550278928443143531184917468683893110, 640338996325975111998990824634787277759974293357743612906271259400, 6408250890751528940698311670701670418638528392048153779646535023000],
  [2804408845407574360493706031571704991024212823768973967225850924000, 1441873868813566417943116991579843169160398110161338967507298767000, 5619411646550633189012903795050204150164194147863663148631269990000],
  [7981793257492078218261920074923218783226981593944355440759693769000, 67810133857874058388793293014073357232023649764448175215887728090, 1200075477892553544751274519820433857022430231370316795892853216000],
  [171735720593809341419531396272321830307536946713504534116230356900, 2957059522990602323173014830424524351705414200689197971720538989000, 3918113614251121382128740871711708305583405954294269889520483140000],
  [1071297965938100989271936662719345282955819178601755427198931601000, 1434066920642281426203528406149641477958715817899449451052501556000, 992816434494999173495506063809323405651188798246454188772929792400],
  [4778657903513425784152871257627226074915507694466446186421960886000, 4839366262237124759700938712014520975131899160489570959418840713000, 269757458026581618394003849916486065998808764723485347837842885800],
  [146013959842361399200917058582544881551445303540463062856832874800, 7582780109016852158101938694696948396281503333343739542900220769000, 1287508002461318043771834122687276853803673005300676828439869767000],
  [3602666020503136396404219575784600807764585281674408651540918934000, 33201482914862423796826092454099023649317823647689030357047561490, 2553679072165592784267897629439317117771613445600763886742213476000],
  [208392767734864175532396087934552731159192186488639219445660431800, 53646739575607810353728737200200946829119140042661049533611799730, 507272476385952855884083631372046564081579469460034445137106068400],
  [2440310209807262046988355208201154750954708657859051777015522740000, 675234594583631277937196546675131748631016308977898181512991910900, 276301081617369505873767135265568851757852399451668117497295812000],
  [2379039858140824473165462719174688290209171676771805550511893096000, 5169491659308930397005866285125604244659609269762544968117303944000, 1334727550729297179694602161134452151310536048395534151089529897000],
  [2869037403279551556511687553515358716111506922447243162219829820000, 139771857248473876321307908962309628240507362756600628127249111500, 6017948089586866170329601921322943387624067858978813430437120528000],
  [1431067939118138673781374612068868011607481287171008231216248484000, 4462055540788043039431814263491463920642752295292752988900464540000, 229487013297975548561952706028815986842913336896297281025909190700],
  [6054139224217080820661166249502329741845608562985015490892398279000, 1061964660935339328696146556819613598578864897427016920409353443000, 569078566270779526411807371968738684783421359422511283396720515900],
  [1090838234150855869613736857974374195576254663878475832792806037000, 191137807781958000802718456698778764315540208819555629456692030400, 225003691385792672024896529001380355190662756749834816611206195500],
  [217783450093418429545646655833753269556789008168055485386613830600, 2383622730401315712027451992482746259734592865580802756255387097000, 1011469516540267973426688918534287077956823161660554730896230043000],
  [4351047098560696466202204897346574526091776632999461940203238830000, 709768901812659858687561335453232365655169592253409818762537220300, 1135131579774479832831005683273168810419624875936211542872842247000],
  [492433502217962276607765351103343252558049832052176103513409871000, 3841020928485942645580471223477776967585660580504602068736399984000, 4270594057031102896416272222043626082134702232792367776840319352000],
  [257211838356211439669964456417352009036959237613210650513560733600, 6166846016063564659320059268943698923948266263807012949568916221000, 2834879933758186300075738109345672807516028953126916215982035489000],
  [1152164498833321987681378380378884443863987758542930641061237124000, 5927527203048754628125580186961525878698483968847663321417781075000, 736209046644547335904065452706616254600984347035242351803831645400]],
  [137354935616193241088432801952195144602419366390069602000740607800,
  18227099551272447297239639163889170517700305185271768042232999560,
  28566396357835189392035148582671335417518292455870286113057682480,
  95192211721945124714711334613716289534080515215645580328360971030,
  67485568661379180335172148416810344094119535111412944996417961280,
  15284471593249853288782959994187969263498595151179970017418725320,
  25823347540403406758053054464636900657874858725100874952217532980,
  14876761512555761210387614902117092657269335037643898470266347450,
  92590687093250521314530974759245341090906705843193480412786203510,
  131250621530700043678971817961099721133239794185194123180661507800,
  104244865873437144940321082695300628737444884662043625351984662500,
  41383369068667392498069108246115334551107573005083673184661743250,
  101899322215159677434149882241431282686891632584347186370400089200,
  81060684257026308406547146919139371980723987283033416808851920020,
  34041180580200868200500411030229115093981718398590220579619303770,
  55736199576972185885137216573651222849498480783739917793145344620,
  111019651687113103729644595571173118184780577620456397525797653600,
  21026257295565662192425258080016009794261772803272800454707515660,
  32619716585089980560825473071475418137717138581162341550195011210,
  38606355364876067142885147139460722284567185473294172411784886760,
  27860890964495349025876455763550421775430436029310451001256853180,
  148846414988864346689723648823038904965844402933474076583329889200,
  34517281095402178484986962359702416977513699859442761420784239920,
  74070363179443081034120681149049841672193483788673725139814141860,
  16128862027420836579512387556252413762771577998850581688987377490,
  47883170413537927524042024548434317417888069749327849060368282710,
  56880467143749789276461141089679322105358786415573630667143178640,
  54632936232594372804896607354088834623850395737686489825896140850,
  28631400748406527660716839974365430093544141256750253387856056140,
  146702076840122621994465059270314422031585522063769423775523012000,
  89908445877641089829023124721497820048259266427524549363739808970,
  38450659396840617205603435716965532509924402109722171656896416580,
  24776221726075694536665077234789833390143107364219606423515276460,
  11681068037218897426442509669203451960897104178907851284313406860,
  78708110692182074318940822725388075897792433848911159900877137160,
  59313673854632030861060553916378175595179551698369816784165452680,
  103906167545774696964834284499559882554515029227832061895510242900,
  47801124574022863064460734314361433865054624139997667097670111750,
  226301305458121002942175348891481354284865217387027099337079282200,
  48923386211171441209016297491497542807757587692963228609885199270,
  77542479129450209556239762908255279362957857074403243075752278700,
  143660556715250112271482580233681583788551857169806061486724780400,
  47591605105795414718093669404747675230224818453474622664122326200,
  16087588445112335601876063378457206898907245203523407798359805700,
  59475646702649315208438205077798068367044057341928390352223784560,
  35435447977312460822016079173609403365771465070372675000655690030,
  21424728144632331422575005745362910737672665803683218244415227980,
  163923061699987858355391484584800903234720910888168697325987287400,
  20805550275756147138216975204707378457225683363471607291151401170,
  116054575004005832112038150791865646166293138792995059325352171100,
  91454855872904520613583782518580598881981635111744691953021960880,
  21136417825697606404221340838978751632756659908954793756753747350,
  26753420290485471067533943353340867357286436830524463504449796720,
  34010977432433742858013203983649536522896421325796296351142820570,
  29164465235364088867138927163994123443101903157315172943882311080,
  168848305081928758728641935814201157530034233003998938337415363200,
  37835860701274283367755755953508951701831295969007261602191895570,
  60762503696226582779602706893496600695914887069387386184920612460,
  196702990587805015039176327806765123564286250312471956886934836000,
  18223560679793860750842352452202956112640834581167959705545392300,
  19391369660762173621499488755591230516716036983688345808410306840,
  42770292342462227221750803602805463494960678043409704396110458700,
  144097711093902691439116345344099873626573232419575656240213633300,
  75157546179180163588925063259797230432662512330908991167210332710,
  176566214643225353355985834036982387436075677474784703593848236100,
  110240799868388724673870315537116048573615573270917731890216624400,
  107516384011000451043555446421853113467586932798559177175974732800,
  31707077839929936888283565173635255760797015163997603946686727730,
  27494646190224437122432969534719755273410179279844345488524666990,
  171367586028676273083089630109788382286087472177254849959885047000,
  103176799194628809504860150218811603876999072211496552188452049700,
  64618967646938384708254568732237559624363666792736530368044868960,
  144138461469090022595889704798514794083763998714317503763363171800,
  29493739067839293571669765316329626240476040762190252742761866050,
  19110739820715743523704369864490992327000566993775343409264883560,
  45557193406978467679578898246685762734174008318779796711932468400,
  13520310997536910975125428423773017991353205117223519571636554210,
  128119073290892285730859719387191292321401903796432463891232221300,
  17503689198674050368175874583988984422923701156564335890463128000,
  8799712357500261314848499804679824379412678257748298427306820948,
  17977742281378019141661757822177055796197532802099007348890094760,
  141808641621859032171536894032992443348996932302714854313492671900,
  25318850297223541883878273167597702547663489072691043322052422530,
  40762033263226867261421156058142331485697464630070006209952653100,
  57799954903685570247557242738999049141769995419546730617381720700,
  56964777696820421150020415460526604359464840473963114736404837130,
  138956693654473935649488544672553049167761693160318115176856349000,
  21003065353481376717379403102365517619493562081652225932314047710,
  105732408182358919047473286327563288714527910497645772495152725000,
  34030736572151145714857212166624566885790739976481112354281269930,
  33166269232810693617648620226941254955593498186766851111780645310,
  33647001684478479994505051527587445020245494011559761909558363370,
  55264238509614757216532359512358684437457435387308053307860485020,
  11595154594767592810468015290575068052212417994185879572300784290,
  65074015506632976859044340249800039880797988471282586463576334910,
  142808909065538886859853881719246550558561057061209425423821591900,
  34889883434556490486197376235369568850347547397882021100010262000,
  64132230933080679787478757877214554086057455710097468565233618650,
  161335823044690375306083266334627503827458809922201491546646755600,
  51238710663862845222043714393415928873986462701850700813382253090,
  133626568845867370133716910596522945027831089752903750901512442700,
  213165110245109055260447108804422859592682688750428351567597095100,
  85874226478151543052825654923919886935799195154949585129613543630,
  46441308390399883636653479631730088006121130915975210983389992250,
  24758853087570575443415592425431944350821714813251498890278732410,
  49900234827013431080663165577689500831127122042615521066399456430,
  80216417709842554906848247130918281241803224923710302397596012250,
  80820300346371618096980997075711672595984024864715565969767440080,
  35310085357266207816392038356096035769551805693867365025761938700,
  61075861681260795000161480015567014586535525227831908751659807400,
  26868867686055044342421204928412962396123930293099868810393494630,
  155867152199409551354385467278690572168187420824127771072097191200,
  224785681831244445629527499218506637318421097955131581583538043700,
  43272450174646488456739051088741155823704079097084469536201174440,
  76766756289081083213578796587347376515036827420360890747111479620,
  64245630427083257482924542150334788507498194356165466001075365200,
  36015623174599671672622009437971291244050172194303668736381210660,
  21077205626668738874340256508789079306954985931101554662543581090,
  120401916691355356803007715765606505972414709438183444893369777700,
  29280987784074535485122070059258269636946593861061329438637801650,
  27143140128299648309841319448940591342693468163396496107498156890,
  26847561377532610828805830664710193540971338368137975685731754000,
  63630486461960305442737525287873058348710507305743241422257006760,
  173940883766678352040783158558548779655922411951908398295118686300,
  18628320572035544962303996632717471764111001481372915045406146790,
  53347705814090296042208540709803914730537443208448902828251743620,
  22747327603798299919952994159608073989896787799590542046836681820,
  75320004826911229167181041582623107000188623583308385406872501260,
  103633236327260290028692183448393474902305813413111053877660532900,
  28038307798151796323365532405129015194357645975867824897523366400,
  36915370277615825667049591261092689690223902985503804397429755360,
  38373539910489992905046726781449287905542750340238346152273232340,
  7076306195457753662216937027177517905345965791941344388889589270,
  50234766785310976904392613932323507871107250813352926933269696620,
  164269690488528524286725062613854169943482496027548425749254458500,
  47158104683361731953843638564891778520776681411859126374873634280,
  85367073518000897819240371340687547105555295258658816062829359210,
  106480587786992961941664185515458496264855239845356451503126738500,
  20721920202541031526444005968689912311556842157808238265623200830,
  68666503229894640025291862056404332388457741078241558477511578960,
  120155441757687885880677520910792113295105355423171511946877432600,
  121632074467011404191009282335102557214962719909874060530795260300,
  64829512987659497983042786859315184283617757959376502319500384200,
  90107112079941478103378927572808265859611596073445476926251167670]⟩

end Tandem.QuadTable
