import Verif.Model.QuadTable
/-! Generated by tools/gen_tables.py from src/quadrules/WitherdenVincent2015_Tet.cpp: do not edit. -/
namespace Tandem.QuadTable
set_option maxRecDepth 100000

/-- The rule of order 1 in `WitherdenVincent2015_Tet`, src/quadrules/WitherdenVincent2015_Tet.cpp lines 10-10. -/
def tet1 : Raw := ⟨1, 37, [
  [-5000000000000000000000000000000000000, -5000000000000000000000000000000000000, -5000000000000000000000000000000000000]],
  [13333333333333333333333333333333333333]⟩

/-- The rule of order 2 in `WitherdenVincent2015_Tet`, src/quadrules/WitherdenVincent2015_Tet.cpp lines 11-21. -/
def tet2 : Raw := ⟨2, 38, [
  [-72360679774997896964091736687312762354, -72360679774997896964091736687312762354, 17082039324993690892275210061938287063],
  [-72360679774997896964091736687312762354, 17082039324993690892275210061938287063, -72360679774997896964091736687312762354],
  [17082039324993690892275210061938287063, -72360679774997896964091736687312762354, -72360679774997896964091736687312762354],
  [-72360679774997896964091736687312762354, -72360679774997896964091736687312762354, -72360679774997896964091736687312762354]],
  [33333333333333333333333333333333333333,
  33333333333333333333333333333333333333,
  33333333333333333333333333333333333333,
  33333333333333333333333333333333333333]⟩

/-- The rule of order 3 in `WitherdenVincent2015_Tet`, src/quadrules/WitherdenVincent2015_Tet.cpp lines 22-42. -/
def tet3 : Raw := ⟨3, 38, [
  [-34367339496723662642072827083693243093, -34367339496723662642072827083693243093, -96897981509829012073781518748920270720],
  [-34367339496723662642072827083693243093, -96897981509829012073781518748920270720, -34367339496723662642072827083693243093],
  [-96897981509829012073781518748920270720, -34367339496723662642072827083693243093, -34367339496723662642072827083693243093],
  [-34367339496723662642072827083693243093, -34367339496723662642072827083693243093, -34367339496723662642072827083693243093],
  [-78390550020314279176487322158837338344, -78390550020314279176487322158837338344, 35171650060942837529461966476512015033],
  [-78390550020314279176487322158837338344, 35171650060942837529461966476512015033, -78390550020314279176487322158837338344],
  [35171650060942837529461966476512015033, -78390550020314279176487322158837338344, -78390550020314279176487322158837338344],
  [-78390550020314279176487322158837338344, -78390550020314279176487322158837338344, -78390550020314279176487322158837338344]],
  [18162379004944980942342872025562069427,
  18162379004944980942342872025562069427,
  18162379004944980942342872025562069427,
  18162379004944980942342872025562069427,
  15170954328388352390990461307771263906,
  15170954328388352390990461307771263906,
  15170954328388352390990461307771263906,
  15170954328388352390990461307771263906]⟩

/-- The rule of order 5 in `WitherdenVincent2015_Tet`, src/quadrules/WitherdenVincent2015_Tet.cpp lines 43-78. -/
def tet5 : Raw := ⟨5, 39, [
  [-378228161473398780405308532473084334010, -378228161473398780405308532473084334010, -865315515579803658784074402580746997960],
  [-378228161473398780405308532473084334010, -865315515579803658784074402580746997960, -378228161473398780405308532473084334010],
  [-865315515579803658784074402580746997960, -378228161473398780405308532473084334010, -378228161473398780405308532473084334010],
  [-378228161473398780405308532473084334010, -378228161473398780405308532473084334010, -378228161473398780405308532473084334010],
  [-814529499378217547195352172525938789510, -814529499378217547195352172525938789510, 443588498134652641586056517577816368530],
  [-814529499378217547195352172525938789510, 443588498134652641586056517577816368530, -814529499378217547195352172525938789510],
  [443588498134652641586056517577816368530, -814529499378217547195352172525938789510, -814529499378217547195352172525938789510],
  [-814529499378217547195352172525938789510, -814529499378217547195352172525938789510, -814529499378217547195352172525938789510],
  [-908992591748700701016238947441321121870, -91007408251299298983761052558678878131, -91007408251299298983761052558678878131],
  [-91007408251299298983761052558678878131, -908992591748700701016238947441321121870, -91007408251299298983761052558678878131],
  [-908992591748700701016238947441321121870, -908992591748700701016238947441321121870, -91007408251299298983761052558678878131],
  [-908992591748700701016238947441321121870, -91007408251299298983761052558678878131, -908992591748700701016238947441321121870],
  [-91007408251299298983761052558678878131, -908992591748700701016238947441321121870, -908992591748700701016238947441321121870],
  [-91007408251299298983761052558678878131, -91007408251299298983761052558678878131, -908992591748700701016238947441321121870]],
  [150250567624021134398914203111048445080,
  150250567624021134398914203111048445080,
  150250567624021134398914203111048445080,
  150250567624021134398914203111048445080,
  97990724155149266058280273981770004697,
  97990724155149266058280273981770004697,
  97990724155149266058280273981770004697,
  97990724155149266058280273981770004697,
  56728027702775288584092570827009922370,
  56728027702775288584092570827009922370,
  56728027702775288584092570827009922370,
  56728027702775288584092570827009922370,
  56728027702775288584092570827009922370,
  56728027702775288584092570827009922370]⟩

/-- The rule of order 6 in `WitherdenVincent2015_Tet`, src/quadrules/WitherdenVincent2015_Tet.cpp lines 79-139. -/
def tet6 : Raw := ⟨6, 39, [
  [-918652082930777293768841102087179881440, -918652082930777293768841102087179881440, 755956248792331881306523306261539644330],
  [-918652082930777293768841102087179881440, 755956248792331881306523306261539644330, -918652082930777293768841102087179881440],
  [755956248792331881306523306261539644330, -918652082930777293768841102087179881440, -918652082930777293768841102087179881440],
  [-918652082930777293768841102087179881440, -918652082930777293768841102087179881440, -918652082930777293768841102087179881440],
  [-355324219715448979312011058475015749510, -355324219715448979312011058475015749510, -934027340853653062063966824574952751460],
  [-355324219715448979312011058475015749510, -934027340853653062063966824574952751460, -355324219715448979312011058475015749510],
  [-934027340853653062063966824574952751460, -355324219715448979312011058475015749510, -355324219715448979312011058475015749510],
  [-355324219715448979312011058475015749510, -355324219715448979312011058475015749510, -355324219715448979312011058475015749510],
  [-570794257481695941422321561227430017200, -570794257481695941422321561227430017200, -287617227554912175733035316317709948390],
  [-570794257481695941422321561227430017200, -287617227554912175733035316317709948390, -570794257481695941422321561227430017200],
  [-287617227554912175733035316317709948390, -570794257481695941422321561227430017200, -570794257481695941422321561227430017200],
  [-570794257481695941422321561227430017200, -570794257481695941422321561227430017200, -570794257481695941422321561227430017200],
  [206011329583298282734862278121879372570, -872677996249964949401528944788546039240, -460655337083368383931804388544787294090],
  [206011329583298282734862278121879372570, -872677996249964949401528944788546039240, -872677996249964949401528944788546039240],
  [-872677996249964949401528944788546039240, -872677996249964949401528944788546039240, 206011329583298282734862278121879372570],
  [-460655337083368383931804388544787294090, 206011329583298282734862278121879372570, -872677996249964949401528944788546039240],
  [-872677996249964949401528944788546039240, -460655337083368383931804388544787294090, 206011329583298282734862278121879372570],
  [-872677996249964949401528944788546039240, 206011329583298282734862278121879372570, -872677996249964949401528944788546039240],
  [-460655337083368383931804388544787294090, -872677996249964949401528944788546039240, 206011329583298282734862278121879372570],
  [-872677996249964949401528944788546039240, -460655337083368383931804388544787294090, -872677996249964949401528944788546039240],
  [-872677996249964949401528944788546039240, -872677996249964949401528944788546039240, -460655337083368383931804388544787294090],
  [-872677996249964949401528944788546039240, 206011329583298282734862278121879372570, -460655337083368383931804388544787294090],
  [-460655337083368383931804388544787294090, -872677996249964949401528944788546039240, -872677996249964949401528944788546039240],
  [206011329583298282734862278121879372570, -460655337083368383931804388544787294090, -872677996249964949401528944788546039240]],
  [13436281407094190597350983261249151023,
  13436281407094190597350983261249151023,
  13436281407094190597350983261249151023,
  13436281407094190597350983261249151023,
  73809575391539629460204370471634688549,
  73809575391539629460204370471634688549,
  73809575391539629460204370471634688549,
  73809575391539629460204370471634688549,
  53230333677556656132920836743306636618,
  53230333677556656132920836743306636618,
  53230333677556656132920836743306636618,
  53230333677556656132920836743306636618,
  64285714285714285714285714285714285714,
  64285714285714285714285714285714285714,
  64285714285714285714285714285714285714,
  64285714285714285714285714285714285714,
  64285714285714285714285714285714285714,
  64285714285714285714285714285714285714,
  64285714285714285714285714285714285714,
  64285714285714285714285714285714285714,
  64285714285714285714285714285714285714,
  64285714285714285714285714285714285714,
  64285714285714285714285714285714285714,
  64285714285714285714285714285714285714]⟩

/-- The rule of order 7 in `WitherdenVincent2015_Tet`, src/quadrules/WitherdenVincent2015_Tet.cpp lines 140-227. -/
def tet7 : Raw := ⟨7, 39, [
  [-500000000000000000000000000000000000000, -500000000000000000000000000000000000000, -500000000000000000000000000000000000000],
  [-368597700443594401153140000813377023150, -368597700443594401153140000813377023150, -894206898669216796540579997559868930560],
  [-368597700443594401153140000813377023150, -894206898669216796540579997559868930560, -368597700443594401153140000813377023150],
  [-894206898669216796540579997559868930560, -368597700443594401153140000813377023150, -368597700443594401153140000813377023150],
  [-368597700443594401153140000813377023150, -368597700443594401153140000813377023150, -368597700443594401153140000813377023150],
  [-899020354803207262473892354026875068050, -100979645196792737526107645973124931950, -100979645196792737526107645973124931950],
  [-100979645196792737526107645973124931950, -899020354803207262473892354026875068050, -100979645196792737526107645973124931950],
  [-899020354803207262473892354026875068050, -899020354803207262473892354026875068050, -100979645196792737526107645973124931950],
  [-899020354803207262473892354026875068050, -100979645196792737526107645973124931950, -899020354803207262473892354026875068050],
  [-100979645196792737526107645973124931950, -899020354803207262473892354026875068050, -899020354803207262473892354026875068050],
  [-100979645196792737526107645973124931950, -100979645196792737526107645973124931950, -899020354803207262473892354026875068050],
  [150343275174000046966483154044615039330, -622332337947997904527137792290828489990, -905678599278004237912207569462958059350],
  [150343275174000046966483154044615039330, -622332337947997904527137792290828489990, -622332337947997904527137792290828489990],
  [-622332337947997904527137792290828489990, -622332337947997904527137792290828489990, 150343275174000046966483154044615039330],
  [-905678599278004237912207569462958059350, 150343275174000046966483154044615039330, -622332337947997904527137792290828489990],
  [-622332337947997904527137792290828489990, -905678599278004237912207569462958059350, 150343275174000046966483154044615039330],
  [-622332337947997904527137792290828489990, 150343275174000046966483154044615039330, -622332337947997904527137792290828489990],
  [-905678599278004237912207569462958059350, -622332337947997904527137792290828489990, 150343275174000046966483154044615039330],
  [-622332337947997904527137792290828489990, -905678599278004237912207569462958059350, -622332337947997904527137792290828489990],
  [-622332337947997904527137792290828489990, -622332337947997904527137792290828489990, -905678599278004237912207569462958059350],
  [-622332337947997904527137792290828489990, 150343275174000046966483154044615039330, -905678599278004237912207569462958059350],
  [-905678599278004237912207569462958059350, -622332337947997904527137792290828489990, -622332337947997904527137792290828489990],
  [150343275174000046966483154044615039330, -905678599278004237912207569462958059350, -622332337947997904527137792290828489990],
  [621660482197097122236210759696464787590, -957469054917033508022327797000360117850, -706722372363030106191555165695744551890],
  [621660482197097122236210759696464787590, -957469054917033508022327797000360117850, -957469054917033508022327797000360117850],
  [-957469054917033508022327797000360117850, -957469054917033508022327797000360117850, 621660482197097122236210759696464787590],
  [-706722372363030106191555165695744551890, 621660482197097122236210759696464787590, -957469054917033508022327797000360117850],
  [-957469054917033508022327797000360117850, -706722372363030106191555165695744551890, 621660482197097122236210759696464787590],
  [-957469054917033508022327797000360117850, 621660482197097122236210759696464787590, -957469054917033508022327797000360117850],
  [-706722372363030106191555165695744551890, -957469054917033508022327797000360117850, 621660482197097122236210759696464787590],
  [-957469054917033508022327797000360117850, -706722372363030106191555165695744551890, -957469054917033508022327797000360117850],
  [-957469054917033508022327797000360117850, -957469054917033508022327797000360117850, -706722372363030106191555165695744551890],
  [-957469054917033508022327797000360117850, 621660482197097122236210759696464787590, -706722372363030106191555165695744551890],
  [-706722372363030106191555165695744551890, -957469054917033508022327797000360117850, -957469054917033508022327797000360117850],
  [621660482197097122236210759696464787590, -706722372363030106191555165695744551890, -957469054917033508022327797000360117850]],
  [127313719285507798480771248156301842450,
  56439441613289372101714894398062316650,
  56439441613289372101714894398062316650,
  56439441613289372101714894398062316650,
  56439441613289372101714894398062316650,
  42529237110476773245699765443923276130,
  42529237110476773245699765443923276130,
  42529237110476773245699765443923276130,
  42529237110476773245699765443923276130,
  42529237110476773245699765443923276130,
  42529237110476773245699765443923276130,
  49609507637779495159487414921974827082,
  49609507637779495159487414921974827082,
  49609507637779495159487414921974827082,
  49609507637779495159487414921974827082,
  49609507637779495159487414921974827082,
  49609507637779495159487414921974827082,
  49609507637779495159487414921974827082,
  49609507637779495159487414921974827082,
  49609507637779495159487414921974827082,
  49609507637779495159487414921974827082,
  49609507637779495159487414921974827082,
  49609507637779495159487414921974827082,
  10814361106537788754804577988128720209,
  10814361106537788754804577988128720209,
  10814361106537788754804577988128720209,
  10814361106537788754804577988128720209,
  10814361106537788754804577988128720209,
  10814361106537788754804577988128720209,
  10814361106537788754804577988128720209,
  10814361106537788754804577988128720209,
  10814361106537788754804577988128720209,
  10814361106537788754804577988128720209,
  10814361106537788754804577988128720209,
  10814361106537788754804577988128720209]⟩

/-- The rule of order 8 in `WitherdenVincent2015_Tet`, src/quadrules/WitherdenVincent2015_Tet.cpp lines 228-343. -/
def tet8 : Raw := ⟨8, 40, [
  [-7840945500755783030356134385458527685100, -7840945500755783030356134385458527685100, 3522836502267349091068403156375583055300],
  [-7840945500755783030356134385458527685100, 3522836502267349091068403156375583055300, -7840945500755783030356134385458527685100],
  [3522836502267349091068403156375583055300, -7840945500755783030356134385458527685100, -7840945500755783030356134385458527685100],
  [-7840945500755783030356134385458527685100, -7840945500755783030356134385458527685100, -7840945500755783030356134385458527685100],
  [-6297810244348268594461839994965037970000, -6297810244348268594461839994965037970000, -1106569266955194216614480015104886090000],
  [-6297810244348268594461839994965037970000, -1106569266955194216614480015104886090000, -6297810244348268594461839994965037970000],
  [-1106569266955194216614480015104886090000, -6297810244348268594461839994965037970000, -6297810244348268594461839994965037970000],
  [-6297810244348268594461839994965037970000, -6297810244348268594461839994965037970000, -6297810244348268594461839994965037970000],
  [-9153669126304654367518359143185505718900, -9153669126304654367518359143185505718900, 7461007378913963102555077429556517156800],
  [-9153669126304654367518359143185505718900, 7461007378913963102555077429556517156800, -9153669126304654367518359143185505718900],
  [7461007378913963102555077429556517156800, -9153669126304654367518359143185505718900, -9153669126304654367518359143185505718900],
  [-9153669126304654367518359143185505718900, -9153669126304654367518359143185505718900, -9153669126304654367518359143185505718900],
  [-3716365817519220092733424531237366270200, -3716365817519220092733424531237366270200, -8850902547442339721799726406287901189500],
  [-3716365817519220092733424531237366270200, -8850902547442339721799726406287901189500, -3716365817519220092733424531237366270200],
  [-8850902547442339721799726406287901189500, -3716365817519220092733424531237366270200, -3716365817519220092733424531237366270200],
  [-3716365817519220092733424531237366270200, -3716365817519220092733424531237366270200, -3716365817519220092733424531237366270200],
  [-1288173428323395895437336764068059352600, -8711826571676604104562663235931940647400, -8711826571676604104562663235931940647400],
  [-8711826571676604104562663235931940647400, -1288173428323395895437336764068059352600, -8711826571676604104562663235931940647400],
  [-1288173428323395895437336764068059352600, -1288173428323395895437336764068059352600, -8711826571676604104562663235931940647400],
  [-1288173428323395895437336764068059352600, -8711826571676604104562663235931940647400, -1288173428323395895437336764068059352600],
  [-8711826571676604104562663235931940647400, -1288173428323395895437336764068059352600, -1288173428323395895437336764068059352600],
  [-8711826571676604104562663235931940647400, -8711826571676604104562663235931940647400, -1288173428323395895437336764068059352600],
  [4349281268526166465800571142511629008800, -9571321397457388503110018211535311896300, -5206638473611389459580534719441005216100],
  [4349281268526166465800571142511629008800, -9571321397457388503110018211535311896300, -9571321397457388503110018211535311896300],
  [-9571321397457388503110018211535311896300, -9571321397457388503110018211535311896300, 4349281268526166465800571142511629008800],
  [-5206638473611389459580534719441005216100, 4349281268526166465800571142511629008800, -9571321397457388503110018211535311896300],
  [-9571321397457388503110018211535311896300, -5206638473611389459580534719441005216100, 4349281268526166465800571142511629008800],
  [-9571321397457388503110018211535311896300, 4349281268526166465800571142511629008800, -9571321397457388503110018211535311896300],
  [-5206638473611389459580534719441005216100, -9571321397457388503110018211535311896300, 4349281268526166465800571142511629008800],
  [-9571321397457388503110018211535311896300, -5206638473611389459580534719441005216100, -9571321397457388503110018211535311896300],
  [-9571321397457388503110018211535311896300, -9571321397457388503110018211535311896300, -5206638473611389459580534719441005216100],
  [-9571321397457388503110018211535311896300, 4349281268526166465800571142511629008800, -5206638473611389459580534719441005216100],
  [-5206638473611389459580534719441005216100, -9571321397457388503110018211535311896300, -9571321397457388503110018211535311896300],
  [4349281268526166465800571142511629008800, -5206638473611389459580534719441005216100, -9571321397457388503110018211535311896300],
  [1675947566042888118533395084146600528300, -5917213322479417591394194024396308824200, -9841520921084052935745007035353982879900],
  [1675947566042888118533395084146600528300, -5917213322479417591394194024396308824200, -5917213322479417591394194024396308824200],
  [-5917213322479417591394194024396308824200, -5917213322479417591394194024396308824200, 1675947566042888118533395084146600528300],
  [-9841520921084052935745007035353982879900, 1675947566042888118533395084146600528300, -5917213322479417591394194024396308824200],
  [-5917213322479417591394194024396308824200, -9841520921084052935745007035353982879900, 1675947566042888118533395084146600528300],
  [-5917213322479417591394194024396308824200, 1675947566042888118533395084146600528300, -5917213322479417591394194024396308824200],
  [-9841520921084052935745007035353982879900, -5917213322479417591394194024396308824200, 1675947566042888118533395084146600528300],
  [-5917213322479417591394194024396308824200, -9841520921084052935745007035353982879900, -5917213322479417591394194024396308824200],
  [-5917213322479417591394194024396308824200, -5917213322479417591394194024396308824200, -9841520921084052935745007035353982879900],
  [-5917213322479417591394194024396308824200, 1675947566042888118533395084146600528300, -9841520921084052935745007035353982879900],
  [-9841520921084052935745007035353982879900, -5917213322479417591394194024396308824200, -5917213322479417591394194024396308824200],
  [1675947566042888118533395084146600528300, -9841520921084052935745007035353982879900, -5917213322479417591394194024396308824200]],
  [352355345445451085390973135656458279020,
  352355345445451085390973135656458279020,
  352355345445451085390973135656458279020,
  352355345445451085390973135656458279020,
  693756634183180436198614100284726776060,
  693756634183180436198614100284726776060,
  693756634183180436198614100284726776060,
  693756634183180436198614100284726776060,
  100336748713869330409674051102927662110,
  100336748713869330409674051102927662110,
  100336748713869330409674051102927662110,
  100336748713869330409674051102927662110,
  556850438092465302759718131717488342230,
  556850438092465302759718131717488342230,
  556850438092465302759718131717488342230,
  556850438092465302759718131717488342230,
  483745736817450973349593628644577834120,
  483745736817450973349593628644577834120,
  483745736817450973349593628644577834120,
  483745736817450973349593628644577834120,
  483745736817450973349593628644577834120,
  483745736817450973349593628644577834120,
  95425371877925775336250150191510735196,
  95425371877925775336250150191510735196,
  95425371877925775336250150191510735196,
  95425371877925775336250150191510735196,
  95425371877925775336250150191510735196,
  95425371877925775336250150191510735196,
  95425371877925775336250150191510735196,
  95425371877925775336250150191510735196,
  95425371877925775336250150191510735196,
  95425371877925775336250150191510735196,
  95425371877925775336250150191510735196,
  95425371877925775336250150191510735196,
  206046482012804464180404340343444439050,
  206046482012804464180404340343444439050,
  206046482012804464180404340343444439050,
  206046482012804464180404340343444439050,
  206046482012804464180404340343444439050,
  206046482012804464180404340343444439050,
  206046482012804464180404340343444439050,
  206046482012804464180404340343444439050,
  206046482012804464180404340343444439050,
  206046482012804464180404340343444439050,
  206046482012804464180404340343444439050,
  206046482012804464180404340343444439050]⟩

/-- The rule of order 9 in `WitherdenVincent2015_Tet`, src/quadrules/WitherdenVincent2015_Tet.cpp lines 344-491. -/
def tet9 : Raw := ⟨9, 42, [
  [-500000000000000000000000000000000000000000, -500000000000000000000000000000000000000000, -500000000000000000000000000000000000000000],
  [-999999998760366011090698315291619854230000, -999999998760366011090698315291619854230000, 999999996281098033272094945874859562700000],
  [-999999998760366011090698315291619854230000, 999999996281098033272094945874859562700000, -999999998760366011090698315291619854230000],
  [999999996281098033272094945874859562700000, -999999998760366011090698315291619854230000, -999999998760366011090698315291619854230000],
  [-999999998760366011090698315291619854230000, -999999998760366011090698315291619854230000, -999999998760366011090698315291619854230000],
  [-678450929209476811696017122229216038530000, -678450929209476811696017122229216038530000, 35352787628430435088051366687648115583000],
  [-678450929209476811696017122229216038530000, 35352787628430435088051366687648115583000, -678450929209476811696017122229216038530000],
  [35352787628430435088051366687648115583000, -678450929209476811696017122229216038530000, -678450929209476811696017122229216038530000],
  [-678450929209476811696017122229216038530000, -678450929209476811696017122229216038530000, -678450929209476811696017122229216038530000],
  [-355446956357158051591863803192221340270000, -355446956357158051591863803192221340270000, -933659130928525845224408590423335979190000],
  [-355446956357158051591863803192221340270000, -933659130928525845224408590423335979190000, -355446956357158051591863803192221340270000],
  [-933659130928525845224408590423335979190000, -355446956357158051591863803192221340270000, -355446956357158051591863803192221340270000],
  [-355446956357158051591863803192221340270000, -355446956357158051591863803192221340270000, -355446956357158051591863803192221340270000],
  [-909782163309172834078073855012006143310000, -909782163309172834078073855012006143310000, 729346489927518502234221565036018429940000],
  [-909782163309172834078073855012006143310000, 729346489927518502234221565036018429940000, -909782163309172834078073855012006143310000],
  [729346489927518502234221565036018429940000, -909782163309172834078073855012006143310000, -909782163309172834078073855012006143310000],
  [-909782163309172834078073855012006143310000, -909782163309172834078073855012006143310000, -909782163309172834078073855012006143310000],
  [-775406907991247909344020700939688757290000, -224593092008752090655979299060311242710000, -224593092008752090655979299060311242710000],
  [-224593092008752090655979299060311242710000, -775406907991247909344020700939688757290000, -224593092008752090655979299060311242710000],
  [-775406907991247909344020700939688757290000, -775406907991247909344020700939688757290000, -224593092008752090655979299060311242710000],
  [-775406907991247909344020700939688757290000, -224593092008752090655979299060311242710000, -775406907991247909344020700939688757290000],
  [-224593092008752090655979299060311242710000, -775406907991247909344020700939688757290000, -775406907991247909344020700939688757290000],
  [-224593092008752090655979299060311242710000, -224593092008752090655979299060311242710000, -775406907991247909344020700939688757290000],
  [-994890841533917338064711949103255315000000, -82257102495081453456435781598997046246000, -840594953475919755022416487698750592510000],
  [-994890841533917338064711949103255315000000, -82257102495081453456435781598997046246000, -82257102495081453456435781598997046246000],
  [-82257102495081453456435781598997046246000, -82257102495081453456435781598997046246000, -994890841533917338064711949103255315000000],
  [-840594953475919755022416487698750592510000, -994890841533917338064711949103255315000000, -82257102495081453456435781598997046246000],
  [-82257102495081453456435781598997046246000, -840594953475919755022416487698750592510000, -994890841533917338064711949103255315000000],
  [-82257102495081453456435781598997046246000, -994890841533917338064711949103255315000000, -82257102495081453456435781598997046246000],
  [-840594953475919755022416487698750592510000, -82257102495081453456435781598997046246000, -994890841533917338064711949103255315000000],
  [-82257102495081453456435781598997046246000, -840594953475919755022416487698750592510000, -82257102495081453456435781598997046246000],
  [-82257102495081453456435781598997046246000, -82257102495081453456435781598997046246000, -840594953475919755022416487698750592510000],
  [-82257102495081453456435781598997046246000, -994890841533917338064711949103255315000000, -840594953475919755022416487698750592510000],
  [-840594953475919755022416487698750592510000, -82257102495081453456435781598997046246000, -82257102495081453456435781598997046246000],
  [-994890841533917338064711949103255315000000, -840594953475919755022416487698750592510000, -82257102495081453456435781598997046246000],
  [436700652884149018113544489129287500120000, -932448258629322844189027372021594137190000, -571804135625503329735489745086099225740000],
  [436700652884149018113544489129287500120000, -932448258629322844189027372021594137190000, -932448258629322844189027372021594137190000],
  [-932448258629322844189027372021594137190000, -932448258629322844189027372021594137190000, 436700652884149018113544489129287500120000],
  [-571804135625503329735489745086099225740000, 436700652884149018113544489129287500120000, -932448258629322844189027372021594137190000],
  [-932448258629322844189027372021594137190000, -571804135625503329735489745086099225740000, 436700652884149018113544489129287500120000],
  [-932448258629322844189027372021594137190000, 436700652884149018113544489129287500120000, -932448258629322844189027372021594137190000],
  [-571804135625503329735489745086099225740000, -932448258629322844189027372021594137190000, 436700652884149018113544489129287500120000],
  [-932448258629322844189027372021594137190000, -571804135625503329735489745086099225740000, -932448258629322844189027372021594137190000],
  [-932448258629322844189027372021594137190000, -932448258629322844189027372021594137190000, -571804135625503329735489745086099225740000],
  [-932448258629322844189027372021594137190000, 436700652884149018113544489129287500120000, -571804135625503329735489745086099225740000],
  [-571804135625503329735489745086099225740000, -932448258629322844189027372021594137190000, -932448258629322844189027372021594137190000],
  [436700652884149018113544489129287500120000, -571804135625503329735489745086099225740000, -932448258629322844189027372021594137190000],
  [-931168178843649459821589575777136286690000, -632717260380144220422062580287261546830000, 196602699603937900665714736351659380350000],
  [-931168178843649459821589575777136286690000, -632717260380144220422062580287261546830000, -632717260380144220422062580287261546830000],
  [-632717260380144220422062580287261546830000, -632717260380144220422062580287261546830000, -931168178843649459821589575777136286690000],
  [196602699603937900665714736351659380350000, -931168178843649459821589575777136286690000, -632717260380144220422062580287261546830000],
  [-632717260380144220422062580287261546830000, 196602699603937900665714736351659380350000, -931168178843649459821589575777136286690000],
  [-632717260380144220422062580287261546830000, -931168178843649459821589575777136286690000, -632717260380144220422062580287261546830000],
  [196602699603937900665714736351659380350000, -632717260380144220422062580287261546830000, -931168178843649459821589575777136286690000],
  [-632717260380144220422062580287261546830000, 196602699603937900665714736351659380350000, -632717260380144220422062580287261546830000],
  [-632717260380144220422062580287261546830000, -632717260380144220422062580287261546830000, 196602699603937900665714736351659380350000],
  [-632717260380144220422062580287261546830000, -931168178843649459821589575777136286690000, 196602699603937900665714736351659380350000],
  [196602699603937900665714736351659380350000, -632717260380144220422062580287261546830000, -632717260380144220422062580287261546830000],
  [-931168178843649459821589575777136286690000, 196602699603937900665714736351659380350000, -632717260380144220422062580287261546830000]],
  [77347398549973676447419062575537299180000,
  85759042345675186085903030258742437834,
  85759042345675186085903030258742437834,
  85759042345675186085903030258742437834,
  85759042345675186085903030258742437834,
  30897784616567277310532826869162311937000,
  30897784616567277310532826869162311937000,
  30897784616567277310532826869162311937000,
  30897784616567277310532826869162311937000,
  39417216447239047523644877985518239107000,
  39417216447239047523644877985518239107000,
  39417216447239047523644877985518239107000,
  39417216447239047523644877985518239107000,
  10751973306154910354337519688619045729000,
  10751973306154910354337519688619045729000,
  10751973306154910354337519688619045729000,
  10751973306154910354337519688619045729000,
  50845440138269954068897481311360914750000,
  50845440138269954068897481311360914750000,
  50845440138269954068897481311360914750000,
  50845440138269954068897481311360914750000,
  50845440138269954068897481311360914750000,
  50845440138269954068897481311360914750000,
  11179229597731402927583520512290878612000,
  11179229597731402927583520512290878612000,
  11179229597731402927583520512290878612000,
  11179229597731402927583520512290878612000,
  11179229597731402927583520512290878612000,
  11179229597731402927583520512290878612000,
  11179229597731402927583520512290878612000,
  11179229597731402927583520512290878612000,
  11179229597731402927583520512290878612000,
  11179229597731402927583520512290878612000,
  11179229597731402927583520512290878612000,
  11179229597731402927583520512290878612000,
  13646079136993770600501763121325612648000,
  13646079136993770600501763121325612648000,
  13646079136993770600501763121325612648000,
  13646079136993770600501763121325612648000,
  13646079136993770600501763121325612648000,
  13646079136993770600501763121325612648000,
  13646079136993770600501763121325612648000,
  13646079136993770600501763121325612648000,
  13646079136993770600501763121325612648000,
  13646079136993770600501763121325612648000,
  13646079136993770600501763121325612648000,
  13646079136993770600501763121325612648000,
  27366554623984184053091789082666607808000,
  27366554623984184053091789082666607808000,
  27366554623984184053091789082666607808000,
  27366554623984184053091789082666607808000,
  27366554623984184053091789082666607808000,
  27366554623984184053091789082666607808000,
  27366554623984184053091789082666607808000,
  27366554623984184053091789082666607808000,
  27366554623984184053091789082666607808000,
  27366554623984184053091789082666607808000,
  27366554623984184053091789082666607808000,
  27366554623984184053091789082666607808000]⟩

/-- The rule of order 10 in `WitherdenVincent2015_Tet`, src/quadrules/WitherdenVincent2015_Tet.cpp lines 492-694. -/
def tet10 : Raw := ⟨10, 41, [
  [-50000000000000000000000000000000000000000, -50000000000000000000000000000000000000000, -50000000000000000000000000000000000000000],
  [-37549986260962270454038336262634508960000, -37549986260962270454038336262634508960000, -87350041217113188637884991212096473119000],
  [-37549986260962270454038336262634508960000, -87350041217113188637884991212096473119000, -37549986260962270454038336262634508960000],
  [-87350041217113188637884991212096473119000, -37549986260962270454038336262634508960000, -37549986260962270454038336262634508960000],
  [-37549986260962270454038336262634508960000, -37549986260962270454038336262634508960000, -37549986260962270454038336262634508960000],
  [-77138069228530769882525760469269910942000, -77138069228530769882525760469269910942000, 31414207685592309647577281407809732827000],
  [-77138069228530769882525760469269910942000, 31414207685592309647577281407809732827000, -77138069228530769882525760469269910942000],
  [31414207685592309647577281407809732827000, -77138069228530769882525760469269910942000, -77138069228530769882525760469269910942000],
  [-77138069228530769882525760469269910942000, -77138069228530769882525760469269910942000, -77138069228530769882525760469269910942000],
  [-66902794876077789679101975111094717095000, -17913852156206901142420431149697662502000, -97269500811508408036057162589509957901000],
  [-66902794876077789679101975111094717095000, -17913852156206901142420431149697662502000, -17913852156206901142420431149697662502000],
  [-17913852156206901142420431149697662502000, -17913852156206901142420431149697662502000, -66902794876077789679101975111094717095000],
  [-97269500811508408036057162589509957901000, -66902794876077789679101975111094717095000, -17913852156206901142420431149697662502000],
  [-17913852156206901142420431149697662502000, -97269500811508408036057162589509957901000, -66902794876077789679101975111094717095000],
  [-17913852156206901142420431149697662502000, -66902794876077789679101975111094717095000, -17913852156206901142420431149697662502000],
  [-97269500811508408036057162589509957901000, -17913852156206901142420431149697662502000, -66902794876077789679101975111094717095000],
  [-17913852156206901142420431149697662502000, -97269500811508408036057162589509957901000, -17913852156206901142420431149697662502000],
  [-17913852156206901142420431149697662502000, -17913852156206901142420431149697662502000, -97269500811508408036057162589509957901000],
  [-17913852156206901142420431149697662502000, -66902794876077789679101975111094717095000, -97269500811508408036057162589509957901000],
  [-97269500811508408036057162589509957901000, -17913852156206901142420431149697662502000, -17913852156206901142420431149697662502000],
  [-66902794876077789679101975111094717095000, -97269500811508408036057162589509957901000, -17913852156206901142420431149697662502000],
  [88597753469040973239526117383650152590000, -98772398235041850430481257350316929785000, -91052956998957272378563602683016293020000],
  [88597753469040973239526117383650152590000, -98772398235041850430481257350316929785000, -98772398235041850430481257350316929785000],
  [-98772398235041850430481257350316929785000, -98772398235041850430481257350316929785000, 88597753469040973239526117383650152590000],
  [-91052956998957272378563602683016293020000, 88597753469040973239526117383650152590000, -98772398235041850430481257350316929785000],
  [-98772398235041850430481257350316929785000, -91052956998957272378563602683016293020000, 88597753469040973239526117383650152590000],
  [-98772398235041850430481257350316929785000, 88597753469040973239526117383650152590000, -98772398235041850430481257350316929785000],
  [-91052956998957272378563602683016293020000, -98772398235041850430481257350316929785000, 88597753469040973239526117383650152590000],
  [-98772398235041850430481257350316929785000, -91052956998957272378563602683016293020000, -98772398235041850430481257350316929785000],
  [-98772398235041850430481257350316929785000, -98772398235041850430481257350316929785000, -91052956998957272378563602683016293020000],
  [-98772398235041850430481257350316929785000, 88597753469040973239526117383650152590000, -91052956998957272378563602683016293020000],
  [-91052956998957272378563602683016293020000, -98772398235041850430481257350316929785000, -98772398235041850430481257350316929785000],
  [88597753469040973239526117383650152590000, -91052956998957272378563602683016293020000, -98772398235041850430481257350316929785000],
  [-4561924019143929891178718340618555875100, -75789963770882114801220999680989894474000, -43858148439091840506379282297401655176000],
  [-4561924019143929891178718340618555875100, -75789963770882114801220999680989894474000, -75789963770882114801220999680989894474000],
  [-75789963770882114801220999680989894474000, -75789963770882114801220999680989894474000, -4561924019143929891178718340618555875100],
  [-43858148439091840506379282297401655176000, -4561924019143929891178718340618555875100, -75789963770882114801220999680989894474000],
  [-75789963770882114801220999680989894474000, -43858148439091840506379282297401655176000, -4561924019143929891178718340618555875100],
  [-75789963770882114801220999680989894474000, -4561924019143929891178718340618555875100, -75789963770882114801220999680989894474000],
  [-43858148439091840506379282297401655176000, -75789963770882114801220999680989894474000, -4561924019143929891178718340618555875100],
  [-75789963770882114801220999680989894474000, -43858148439091840506379282297401655176000, -75789963770882114801220999680989894474000],
  [-75789963770882114801220999680989894474000, -75789963770882114801220999680989894474000, -43858148439091840506379282297401655176000],
  [-75789963770882114801220999680989894474000, -4561924019143929891178718340618555875100, -43858148439091840506379282297401655176000],
  [-43858148439091840506379282297401655176000, -75789963770882114801220999680989894474000, -75789963770882114801220999680989894474000],
  [-4561924019143929891178718340618555875100, -43858148439091840506379282297401655176000, -75789963770882114801220999680989894474000],
  [18851253896001405132314006877136059652000, -93444106356711465845055795933535161918000, -31963041182578473442202415010065735815000],
  [18851253896001405132314006877136059652000, -93444106356711465845055795933535161918000, -93444106356711465845055795933535161918000],
  [-93444106356711465845055795933535161918000, -93444106356711465845055795933535161918000, 18851253896001405132314006877136059652000],
  [-31963041182578473442202415010065735815000, 18851253896001405132314006877136059652000, -93444106356711465845055795933535161918000],
  [-93444106356711465845055795933535161918000, -31963041182578473442202415010065735815000, 18851253896001405132314006877136059652000],
  [-93444106356711465845055795933535161918000, 18851253896001405132314006877136059652000, -93444106356711465845055795933535161918000],
  [-31963041182578473442202415010065735815000, -93444106356711465845055795933535161918000, 18851253896001405132314006877136059652000],
  [-93444106356711465845055795933535161918000, -31963041182578473442202415010065735815000, -93444106356711465845055795933535161918000],
  [-93444106356711465845055795933535161918000, -93444106356711465845055795933535161918000, -31963041182578473442202415010065735815000],
  [-93444106356711465845055795933535161918000, 18851253896001405132314006877136059652000, -31963041182578473442202415010065735815000],
  [-31963041182578473442202415010065735815000, -93444106356711465845055795933535161918000, -93444106356711465845055795933535161918000],
  [18851253896001405132314006877136059652000, -31963041182578473442202415010065735815000, -93444106356711465845055795933535161918000],
  [60235456931668878246228336815716196359000, -93502943687035390432897012004314760659000, -73229569557598097380434312807086675041000],
  [60235456931668878246228336815716196359000, -93502943687035390432897012004314760659000, -93502943687035390432897012004314760659000],
  [-93502943687035390432897012004314760659000, -93502943687035390432897012004314760659000, 60235456931668878246228336815716196359000],
  [-73229569557598097380434312807086675041000, 60235456931668878246228336815716196359000, -93502943687035390432897012004314760659000],
  [-93502943687035390432897012004314760659000, -73229569557598097380434312807086675041000, 60235456931668878246228336815716196359000],
  [-93502943687035390432897012004314760659000, 60235456931668878246228336815716196359000, -93502943687035390432897012004314760659000],
  [-73229569557598097380434312807086675041000, -93502943687035390432897012004314760659000, 60235456931668878246228336815716196359000],
  [-93502943687035390432897012004314760659000, -73229569557598097380434312807086675041000, -93502943687035390432897012004314760659000],
  [-93502943687035390432897012004314760659000, -93502943687035390432897012004314760659000, -73229569557598097380434312807086675041000],
  [-93502943687035390432897012004314760659000, 60235456931668878246228336815716196359000, -73229569557598097380434312807086675041000],
  [-73229569557598097380434312807086675041000, -93502943687035390432897012004314760659000, -93502943687035390432897012004314760659000],
  [60235456931668878246228336815716196359000, -73229569557598097380434312807086675041000, -93502943687035390432897012004314760659000],
  [25614369095073202138655214443581933130000, -65004131563212195143010154694337920556000, -95606105968648811852634905054906092018000],
  [25614369095073202138655214443581933130000, -65004131563212195143010154694337920556000, -65004131563212195143010154694337920556000],
  [-65004131563212195143010154694337920556000, -65004131563212195143010154694337920556000, 25614369095073202138655214443581933130000],
  [-95606105968648811852634905054906092018000, 25614369095073202138655214443581933130000, -65004131563212195143010154694337920556000],
  [-65004131563212195143010154694337920556000, -95606105968648811852634905054906092018000, 25614369095073202138655214443581933130000],
  [-65004131563212195143010154694337920556000, 25614369095073202138655214443581933130000, -65004131563212195143010154694337920556000],
  [-95606105968648811852634905054906092018000, -65004131563212195143010154694337920556000, 25614369095073202138655214443581933130000],
  [-65004131563212195143010154694337920556000, -95606105968648811852634905054906092018000, -65004131563212195143010154694337920556000],
  [-65004131563212195143010154694337920556000, -65004131563212195143010154694337920556000, -95606105968648811852634905054906092018000],
  [-65004131563212195143010154694337920556000, 25614369095073202138655214443581933130000, -95606105968648811852634905054906092018000],
  [-95606105968648811852634905054906092018000, -65004131563212195143010154694337920556000, -65004131563212195143010154694337920556000],
  [25614369095073202138655214443581933130000, -95606105968648811852634905054906092018000, -65004131563212195143010154694337920556000]],
  [6319969807469431784631842823740146613400,
  3591607998969159973701888133984277861500,
  3591607998969159973701888133984277861500,
  3591607998969159973701888133984277861500,
  3591607998969159973701888133984277861500,
  1315887962239117764607698057356410169300,
  1315887962239117764607698057356410169300,
  1315887962239117764607698057356410169300,
  1315887962239117764607698057356410169300,
  1519184162692697549816124650761911419500,
  1519184162692697549816124650761911419500,
  1519184162692697549816124650761911419500,
  1519184162692697549816124650761911419500,
  1519184162692697549816124650761911419500,
  1519184162692697549816124650761911419500,
  1519184162692697549816124650761911419500,
  1519184162692697549816124650761911419500,
  1519184162692697549816124650761911419500,
  1519184162692697549816124650761911419500,
  1519184162692697549816124650761911419500,
  1519184162692697549816124650761911419500,
  48259245911900483231983784641134908616,
  48259245911900483231983784641134908616,
  48259245911900483231983784641134908616,
  48259245911900483231983784641134908616,
  48259245911900483231983784641134908616,
  48259245911900483231983784641134908616,
  48259245911900483231983784641134908616,
  48259245911900483231983784641134908616,
  48259245911900483231983784641134908616,
  48259245911900483231983784641134908616,
  48259245911900483231983784641134908616,
  48259245911900483231983784641134908616,
  3431964264060809503871468301287294021400,
  3431964264060809503871468301287294021400,
  3431964264060809503871468301287294021400,
  3431964264060809503871468301287294021400,
  3431964264060809503871468301287294021400,
  3431964264060809503871468301287294021400,
  3431964264060809503871468301287294021400,
  3431964264060809503871468301287294021400,
  3431964264060809503871468301287294021400,
  3431964264060809503871468301287294021400,
  3431964264060809503871468301287294021400,
  3431964264060809503871468301287294021400,
  1351449557300772371802196015335570292800,
  1351449557300772371802196015335570292800,
  1351449557300772371802196015335570292800,
  1351449557300772371802196015335570292800,
  1351449557300772371802196015335570292800,
  1351449557300772371802196015335570292800,
  1351449557300772371802196015335570292800,
  1351449557300772371802196015335570292800,
  1351449557300772371802196015335570292800,
  1351449557300772371802196015335570292800,
  1351449557300772371802196015335570292800,
  1351449557300772371802196015335570292800,
  876819636938120555660765360060093479540,
  876819636938120555660765360060093479540,
  876819636938120555660765360060093479540,
  876819636938120555660765360060093479540,
  876819636938120555660765360060093479540,
  876819636938120555660765360060093479540,
  876819636938120555660765360060093479540,
  876819636938120555660765360060093479540,
  876819636938120555660765360060093479540,
  876819636938120555660765360060093479540,
  876819636938120555660765360060093479540,
  876819636938120555660765360060093479540,
  1720938106514932085239390699933198761200,
  1720938106514932085239390699933198761200,
  1720938106514932085239390699933198761200,
  1720938106514932085239390699933198761200,
  1720938106514932085239390699933198761200,
  1720938106514932085239390699933198761200,
  1720938106514932085239390699933198761200,
  1720938106514932085239390699933198761200,
  1720938106514932085239390699933198761200,
  1720938106514932085239390699933198761200,
  1720938106514932085239390699933198761200,
  1720938106514932085239390699933198761200]⟩

end Tandem.QuadTable
