import Verif.Lemmas.QuadCheck
import Verif.Model.Tables.Tet
/-! Generated by tools/gen_tables.py: moments of the rules in src/quadrules/WitherdenVincent2015_Tet.cpp. -/
namespace Tandem.QuadTable
set_option maxRecDepth 100000

def tet1N : List Pt3 := [
  ⟨nat_lit 5000000000000000000000000000000000000, nat_lit 5000000000000000000000000000000000000, nat_lit 5000000000000000000000000000000000000, nat_lit 13333333333333333333333333333333333333⟩]

theorem tet1_eq : normWV3 tet1 = some tet1N := by decide +kernel
theorem tet1_in : all3In (2 * 10 ^ 37) tet1N = true := by decide +kernel
theorem tet1_ok : all3 (2 * 10 ^ 37) (8 * 10 ^ 37) (10 ^ 38) tet1N 1 = true := by decide +kernel

def tet2N : List Pt3 := [
  ⟨nat_lit 27639320225002103035908263312687237646, nat_lit 27639320225002103035908263312687237646, nat_lit 117082039324993690892275210061938287063, nat_lit 33333333333333333333333333333333333333⟩,
  ⟨nat_lit 27639320225002103035908263312687237646, nat_lit 117082039324993690892275210061938287063, nat_lit 27639320225002103035908263312687237646, nat_lit 33333333333333333333333333333333333333⟩,
  ⟨nat_lit 117082039324993690892275210061938287063, nat_lit 27639320225002103035908263312687237646, nat_lit 27639320225002103035908263312687237646, nat_lit 33333333333333333333333333333333333333⟩,
  ⟨nat_lit 27639320225002103035908263312687237646, nat_lit 27639320225002103035908263312687237646, nat_lit 27639320225002103035908263312687237646, nat_lit 33333333333333333333333333333333333333⟩]

theorem tet2_eq : normWV3 tet2 = some tet2N := by decide +kernel
theorem tet2_in : all3In (2 * 10 ^ 38) tet2N = true := by decide +kernel
theorem tet2_ok : all3 (2 * 10 ^ 38) (8 * 10 ^ 38) (10 ^ 38) tet2N 2 = true := by decide +kernel

def tet3N : List Pt3 := [
  ⟨nat_lit 65632660503276337357927172916306756907, nat_lit 65632660503276337357927172916306756907, nat_lit 3102018490170987926218481251079729280, nat_lit 18162379004944980942342872025562069427⟩,
  ⟨nat_lit 65632660503276337357927172916306756907, nat_lit 3102018490170987926218481251079729280, nat_lit 65632660503276337357927172916306756907, nat_lit 18162379004944980942342872025562069427⟩,
  ⟨nat_lit 3102018490170987926218481251079729280, nat_lit 65632660503276337357927172916306756907, nat_lit 65632660503276337357927172916306756907, nat_lit 18162379004944980942342872025562069427⟩,
  ⟨nat_lit 65632660503276337357927172916306756907, nat_lit 65632660503276337357927172916306756907, nat_lit 65632660503276337357927172916306756907, nat_lit 18162379004944980942342872025562069427⟩,
  ⟨nat_lit 21609449979685720823512677841162661656, nat_lit 21609449979685720823512677841162661656, nat_lit 135171650060942837529461966476512015033, nat_lit 15170954328388352390990461307771263906⟩,
  ⟨nat_lit 21609449979685720823512677841162661656, nat_lit 135171650060942837529461966476512015033, nat_lit 21609449979685720823512677841162661656, nat_lit 15170954328388352390990461307771263906⟩,
  ⟨nat_lit 135171650060942837529461966476512015033, nat_lit 21609449979685720823512677841162661656, nat_lit 21609449979685720823512677841162661656, nat_lit 15170954328388352390990461307771263906⟩,
  ⟨nat_lit 21609449979685720823512677841162661656, nat_lit 21609449979685720823512677841162661656, nat_lit 21609449979685720823512677841162661656, nat_lit 15170954328388352390990461307771263906⟩]

theorem tet3_eq : normWV3 tet3 = some tet3N := by decide +kernel
theorem tet3_in : all3In (2 * 10 ^ 38) tet3N = true := by decide +kernel
theorem tet3_ok : all3 (2 * 10 ^ 38) (8 * 10 ^ 38) (10 ^ 38) tet3N 3 = true := by decide +kernel

def tet5N : List Pt3 := [
  ⟨nat_lit 621771838526601219594691467526915665990, nat_lit 621771838526601219594691467526915665990, nat_lit 134684484420196341215925597419253002040, nat_lit 150250567624021134398914203111048445080⟩,
  ⟨nat_lit 621771838526601219594691467526915665990, nat_lit 134684484420196341215925597419253002040, nat_lit 621771838526601219594691467526915665990, nat_lit 150250567624021134398914203111048445080⟩,
  ⟨nat_lit 134684484420196341215925597419253002040, nat_lit 621771838526601219594691467526915665990, nat_lit 621771838526601219594691467526915665990, nat_lit 150250567624021134398914203111048445080⟩,
  ⟨nat_lit 621771838526601219594691467526915665990, nat_lit 621771838526601219594691467526915665990, nat_lit 621771838526601219594691467526915665990, nat_lit 150250567624021134398914203111048445080⟩,
  ⟨nat_lit 185470500621782452804647827474061210490, nat_lit 185470500621782452804647827474061210490, nat_lit 1443588498134652641586056517577816368530, nat_lit 97990724155149266058280273981770004697⟩,
  ⟨nat_lit 185470500621782452804647827474061210490, nat_lit 1443588498134652641586056517577816368530, nat_lit 185470500621782452804647827474061210490, nat_lit 97990724155149266058280273981770004697⟩,
  ⟨nat_lit 1443588498134652641586056517577816368530, nat_lit 185470500621782452804647827474061210490, nat_lit 185470500621782452804647827474061210490, nat_lit 97990724155149266058280273981770004697⟩,
  ⟨nat_lit 185470500621782452804647827474061210490, nat_lit 185470500621782452804647827474061210490, nat_lit 185470500621782452804647827474061210490, nat_lit 97990724155149266058280273981770004697⟩,
  ⟨nat_lit 91007408251299298983761052558678878130, nat_lit 908992591748700701016238947441321121869, nat_lit 908992591748700701016238947441321121869, nat_lit 56728027702775288584092570827009922370⟩,
  ⟨nat_lit 908992591748700701016238947441321121869, nat_lit 91007408251299298983761052558678878130, nat_lit 908992591748700701016238947441321121869, nat_lit 56728027702775288584092570827009922370⟩,
  ⟨nat_lit 91007408251299298983761052558678878130, nat_lit 91007408251299298983761052558678878130, nat_lit 908992591748700701016238947441321121869, nat_lit 56728027702775288584092570827009922370⟩,
  ⟨nat_lit 91007408251299298983761052558678878130, nat_lit 908992591748700701016238947441321121869, nat_lit 91007408251299298983761052558678878130, nat_lit 56728027702775288584092570827009922370⟩,
  ⟨nat_lit 908992591748700701016238947441321121869, nat_lit 91007408251299298983761052558678878130, nat_lit 91007408251299298983761052558678878130, nat_lit 56728027702775288584092570827009922370⟩,
  ⟨nat_lit 908992591748700701016238947441321121869, nat_lit 908992591748700701016238947441321121869, nat_lit 91007408251299298983761052558678878130, nat_lit 56728027702775288584092570827009922370⟩]

theorem tet5_eq : normWV3 tet5 = some tet5N := by decide +kernel
theorem tet5_in : all3In (2 * 10 ^ 39) tet5N = true := by decide +kernel
theorem tet5_ok : all3 (2 * 10 ^ 39) (8 * 10 ^ 39) (10 ^ 38) tet5N 5 = true := by decide +kernel

def tet6N : List Pt3 := [
  ⟨nat_lit 81347917069222706231158897912820118560, nat_lit 81347917069222706231158897912820118560, nat_lit 1755956248792331881306523306261539644330, nat_lit 13436281407094190597350983261249151023⟩,
  ⟨nat_lit 81347917069222706231158897912820118560, nat_lit 1755956248792331881306523306261539644330, nat_lit 81347917069222706231158897912820118560, nat_lit 13436281407094190597350983261249151023⟩,
  ⟨nat_lit 1755956248792331881306523306261539644330, nat_lit 81347917069222706231158897912820118560, nat_lit 81347917069222706231158897912820118560, nat_lit 13436281407094190597350983261249151023⟩,
  ⟨nat_lit 81347917069222706231158897912820118560, nat_lit 81347917069222706231158897912820118560, nat_lit 81347917069222706231158897912820118560, nat_lit 13436281407094190597350983261249151023⟩,
  ⟨nat_lit 644675780284551020687988941524984250490, nat_lit 644675780284551020687988941524984250490, nat_lit 65972659146346937936033175425047248540, nat_lit 73809575391539629460204370471634688549⟩,
  ⟨nat_lit 644675780284551020687988941524984250490, nat_lit 65972659146346937936033175425047248540, nat_lit 644675780284551020687988941524984250490, nat_lit 73809575391539629460204370471634688549⟩,
  ⟨nat_lit 65972659146346937936033175425047248540, nat_lit 644675780284551020687988941524984250490, nat_lit 644675780284551020687988941524984250490, nat_lit 73809575391539629460204370471634688549⟩,
  ⟨nat_lit 644675780284551020687988941524984250490, nat_lit 644675780284551020687988941524984250490, nat_lit 644675780284551020687988941524984250490, nat_lit 73809575391539629460204370471634688549⟩,
  ⟨nat_lit 429205742518304058577678438772569982800, nat_lit 429205742518304058577678438772569982800, nat_lit 712382772445087824266964683682290051610, nat_lit 53230333677556656132920836743306636618⟩,
  ⟨nat_lit 429205742518304058577678438772569982800, nat_lit 712382772445087824266964683682290051610, nat_lit 429205742518304058577678438772569982800, nat_lit 53230333677556656132920836743306636618⟩,
  ⟨nat_lit 712382772445087824266964683682290051610, nat_lit 429205742518304058577678438772569982800, nat_lit 429205742518304058577678438772569982800, nat_lit 53230333677556656132920836743306636618⟩,
  ⟨nat_lit 429205742518304058577678438772569982800, nat_lit 429205742518304058577678438772569982800, nat_lit 429205742518304058577678438772569982800, nat_lit 53230333677556656132920836743306636618⟩,
  ⟨nat_lit 1206011329583298282734862278121879372570, nat_lit 127322003750035050598471055211453960760, nat_lit 539344662916631616068195611455212705910, nat_lit 64285714285714285714285714285714285714⟩,
  ⟨nat_lit 1206011329583298282734862278121879372570, nat_lit 127322003750035050598471055211453960760, nat_lit 127322003750035050598471055211453960760, nat_lit 64285714285714285714285714285714285714⟩,
  ⟨nat_lit 127322003750035050598471055211453960760, nat_lit 127322003750035050598471055211453960760, nat_lit 1206011329583298282734862278121879372570, nat_lit 64285714285714285714285714285714285714⟩,
  ⟨nat_lit 539344662916631616068195611455212705910, nat_lit 1206011329583298282734862278121879372570, nat_lit 127322003750035050598471055211453960760, nat_lit 64285714285714285714285714285714285714⟩,
  ⟨nat_lit 127322003750035050598471055211453960760, nat_lit 539344662916631616068195611455212705910, nat_lit 1206011329583298282734862278121879372570, nat_lit 64285714285714285714285714285714285714⟩,
  ⟨nat_lit 127322003750035050598471055211453960760, nat_lit 1206011329583298282734862278121879372570, nat_lit 127322003750035050598471055211453960760, nat_lit 64285714285714285714285714285714285714⟩,
  ⟨nat_lit 539344662916631616068195611455212705910, nat_lit 127322003750035050598471055211453960760, nat_lit 1206011329583298282734862278121879372570, nat_lit 64285714285714285714285714285714285714⟩,
  ⟨nat_lit 127322003750035050598471055211453960760, nat_lit 539344662916631616068195611455212705910, nat_lit 127322003750035050598471055211453960760, nat_lit 64285714285714285714285714285714285714⟩,
  ⟨nat_lit 127322003750035050598471055211453960760, nat_lit 127322003750035050598471055211453960760, nat_lit 539344662916631616068195611455212705910, nat_lit 64285714285714285714285714285714285714⟩,
  ⟨nat_lit 127322003750035050598471055211453960760, nat_lit 1206011329583298282734862278121879372570, nat_lit 539344662916631616068195611455212705910, nat_lit 64285714285714285714285714285714285714⟩,
  ⟨nat_lit 539344662916631616068195611455212705910, nat_lit 127322003750035050598471055211453960760, nat_lit 127322003750035050598471055211453960760, nat_lit 64285714285714285714285714285714285714⟩,
  ⟨nat_lit 1206011329583298282734862278121879372570, nat_lit 539344662916631616068195611455212705910, nat_lit 127322003750035050598471055211453960760, nat_lit 64285714285714285714285714285714285714⟩]

theorem tet6_eq : normWV3 tet6 = some tet6N := by decide +kernel
theorem tet6_in : all3In (2 * 10 ^ 39) tet6N = true := by decide +kernel
theorem tet6_ok : all3 (2 * 10 ^ 39) (8 * 10 ^ 39) (10 ^ 38) tet6N 6 = true := by decide +kernel

def tet7N : List Pt3 := [
  ⟨nat_lit 500000000000000000000000000000000000000, nat_lit 500000000000000000000000000000000000000, nat_lit 500000000000000000000000000000000000000, nat_lit 127313719285507798480771248156301842450⟩,
  ⟨nat_lit 631402299556405598846859999186622976850, nat_lit 631402299556405598846859999186622976850, nat_lit 105793101330783203459420002440131069440, nat_lit 56439441613289372101714894398062316650⟩,
  ⟨nat_lit 631402299556405598846859999186622976850, nat_lit 105793101330783203459420002440131069440, nat_lit 631402299556405598846859999186622976850, nat_lit 56439441613289372101714894398062316650⟩,
  ⟨nat_lit 105793101330783203459420002440131069440, nat_lit 631402299556405598846859999186622976850, nat_lit 631402299556405598846859999186622976850, nat_lit 56439441613289372101714894398062316650⟩,
  ⟨nat_lit 631402299556405598846859999186622976850, nat_lit 631402299556405598846859999186622976850, nat_lit 631402299556405598846859999186622976850, nat_lit 56439441613289372101714894398062316650⟩,
  ⟨nat_lit 100979645196792737526107645973124931950, nat_lit 899020354803207262473892354026875068050, nat_lit 899020354803207262473892354026875068050, nat_lit 42529237110476773245699765443923276130⟩,
  ⟨nat_lit 899020354803207262473892354026875068050, nat_lit 100979645196792737526107645973124931950, nat_lit 899020354803207262473892354026875068050, nat_lit 42529237110476773245699765443923276130⟩,
  ⟨nat_lit 100979645196792737526107645973124931950, nat_lit 100979645196792737526107645973124931950, nat_lit 899020354803207262473892354026875068050, nat_lit 42529237110476773245699765443923276130⟩,
  ⟨nat_lit 100979645196792737526107645973124931950, nat_lit 899020354803207262473892354026875068050, nat_lit 100979645196792737526107645973124931950, nat_lit 42529237110476773245699765443923276130⟩,
  ⟨nat_lit 899020354803207262473892354026875068050, nat_lit 100979645196792737526107645973124931950, nat_lit 100979645196792737526107645973124931950, nat_lit 42529237110476773245699765443923276130⟩,
  ⟨nat_lit 899020354803207262473892354026875068050, nat_lit 899020354803207262473892354026875068050, nat_lit 100979645196792737526107645973124931950, nat_lit 42529237110476773245699765443923276130⟩,
  ⟨nat_lit 1150343275174000046966483154044615039330, nat_lit 377667662052002095472862207709171510010, nat_lit 94321400721995762087792430537041940650, nat_lit 49609507637779495159487414921974827082⟩,
  ⟨nat_lit 1150343275174000046966483154044615039330, nat_lit 377667662052002095472862207709171510010, nat_lit 377667662052002095472862207709171510010, nat_lit 49609507637779495159487414921974827082⟩,
  ⟨nat_lit 377667662052002095472862207709171510010, nat_lit 377667662052002095472862207709171510010, nat_lit 1150343275174000046966483154044615039330, nat_lit 49609507637779495159487414921974827082⟩,
  ⟨nat_lit 94321400721995762087792430537041940650, nat_lit 1150343275174000046966483154044615039330, nat_lit 377667662052002095472862207709171510010, nat_lit 49609507637779495159487414921974827082⟩,
  ⟨nat_lit 377667662052002095472862207709171510010, nat_lit 94321400721995762087792430537041940650, nat_lit 1150343275174000046966483154044615039330, nat_lit 49609507637779495159487414921974827082⟩,
  ⟨nat_lit 377667662052002095472862207709171510010, nat_lit 1150343275174000046966483154044615039330, nat_lit 377667662052002095472862207709171510010, nat_lit 49609507637779495159487414921974827082⟩,
  ⟨nat_lit 94321400721995762087792430537041940650, nat_lit 377667662052002095472862207709171510010, nat_lit 1150343275174000046966483154044615039330, nat_lit 49609507637779495159487414921974827082⟩,
  ⟨nat_lit 377667662052002095472862207709171510010, nat_lit 94321400721995762087792430537041940650, nat_lit 377667662052002095472862207709171510010, nat_lit 49609507637779495159487414921974827082⟩,
  ⟨nat_lit 377667662052002095472862207709171510010, nat_lit 377667662052002095472862207709171510010, nat_lit 94321400721995762087792430537041940650, nat_lit 49609507637779495159487414921974827082⟩,
  ⟨nat_lit 377667662052002095472862207709171510010, nat_lit 1150343275174000046966483154044615039330, nat_lit 94321400721995762087792430537041940650, nat_lit 49609507637779495159487414921974827082⟩,
  ⟨nat_lit 94321400721995762087792430537041940650, nat_lit 377667662052002095472862207709171510010, nat_lit 377667662052002095472862207709171510010, nat_lit 49609507637779495159487414921974827082⟩,
  ⟨nat_lit 1150343275174000046966483154044615039330, nat_lit 94321400721995762087792430537041940650, nat_lit 377667662052002095472862207709171510010, nat_lit 49609507637779495159487414921974827082⟩,
  ⟨nat_lit 1621660482197097122236210759696464787590, nat_lit 42530945082966491977672202999639882150, nat_lit 293277627636969893808444834304255448110, nat_lit 10814361106537788754804577988128720209⟩,
  ⟨nat_lit 1621660482197097122236210759696464787590, nat_lit 42530945082966491977672202999639882150, nat_lit 42530945082966491977672202999639882150, nat_lit 10814361106537788754804577988128720209⟩,
  ⟨nat_lit 42530945082966491977672202999639882150, nat_lit 42530945082966491977672202999639882150, nat_lit 1621660482197097122236210759696464787590, nat_lit 10814361106537788754804577988128720209⟩,
  ⟨nat_lit 293277627636969893808444834304255448110, nat_lit 1621660482197097122236210759696464787590, nat_lit 42530945082966491977672202999639882150, nat_lit 10814361106537788754804577988128720209⟩,
  ⟨nat_lit 42530945082966491977672202999639882150, nat_lit 293277627636969893808444834304255448110, nat_lit 1621660482197097122236210759696464787590, nat_lit 10814361106537788754804577988128720209⟩,
  ⟨nat_lit 42530945082966491977672202999639882150, nat_lit 1621660482197097122236210759696464787590, nat_lit 42530945082966491977672202999639882150, nat_lit 10814361106537788754804577988128720209⟩,
  ⟨nat_lit 293277627636969893808444834304255448110, nat_lit 42530945082966491977672202999639882150, nat_lit 1621660482197097122236210759696464787590, nat_lit 10814361106537788754804577988128720209⟩,
  ⟨nat_lit 42530945082966491977672202999639882150, nat_lit 293277627636969893808444834304255448110, nat_lit 42530945082966491977672202999639882150, nat_lit 10814361106537788754804577988128720209⟩,
  ⟨nat_lit 42530945082966491977672202999639882150, nat_lit 42530945082966491977672202999639882150, nat_lit 293277627636969893808444834304255448110, nat_lit 10814361106537788754804577988128720209⟩,
  ⟨nat_lit 42530945082966491977672202999639882150, nat_lit 1621660482197097122236210759696464787590, nat_lit 293277627636969893808444834304255448110, nat_lit 10814361106537788754804577988128720209⟩,
  ⟨nat_lit 293277627636969893808444834304255448110, nat_lit 42530945082966491977672202999639882150, nat_lit 42530945082966491977672202999639882150, nat_lit 10814361106537788754804577988128720209⟩,
  ⟨nat_lit 1621660482197097122236210759696464787590, nat_lit 293277627636969893808444834304255448110, nat_lit 42530945082966491977672202999639882150, nat_lit 10814361106537788754804577988128720209⟩]

theorem tet7_eq : normWV3 tet7 = some tet7N := by decide +kernel
theorem tet7_in : all3In (2 * 10 ^ 39) tet7N = true := by decide +kernel
theorem tet7_ok : all3 (2 * 10 ^ 39) (8 * 10 ^ 39) (10 ^ 38) tet7N 7 = true := by decide +kernel

def tet8N : List Pt3 := [
  ⟨nat_lit 2159054499244216969643865614541472314900, nat_lit 2159054499244216969643865614541472314900, nat_lit 13522836502267349091068403156375583055300, nat_lit 352355345445451085390973135656458279020⟩,
  ⟨nat_lit 2159054499244216969643865614541472314900, nat_lit 13522836502267349091068403156375583055300, nat_lit 2159054499244216969643865614541472314900, nat_lit 352355345445451085390973135656458279020⟩,
  ⟨nat_lit 13522836502267349091068403156375583055300, nat_lit 2159054499244216969643865614541472314900, nat_lit 2159054499244216969643865614541472314900, nat_lit 352355345445451085390973135656458279020⟩,
  ⟨nat_lit 2159054499244216969643865614541472314900, nat_lit 2159054499244216969643865614541472314900, nat_lit 2159054499244216969643865614541472314900, nat_lit 352355345445451085390973135656458279020⟩,
  ⟨nat_lit 3702189755651731405538160005034962030000, nat_lit 3702189755651731405538160005034962030000, nat_lit 8893430733044805783385519984895113910000, nat_lit 693756634183180436198614100284726776060⟩,
  ⟨nat_lit 3702189755651731405538160005034962030000, nat_lit 8893430733044805783385519984895113910000, nat_lit 3702189755651731405538160005034962030000, nat_lit 693756634183180436198614100284726776060⟩,
  ⟨nat_lit 8893430733044805783385519984895113910000, nat_lit 3702189755651731405538160005034962030000, nat_lit 3702189755651731405538160005034962030000, nat_lit 693756634183180436198614100284726776060⟩,
  ⟨nat_lit 3702189755651731405538160005034962030000, nat_lit 3702189755651731405538160005034962030000, nat_lit 3702189755651731405538160005034962030000, nat_lit 693756634183180436198614100284726776060⟩,
  ⟨nat_lit 846330873695345632481640856814494281100, nat_lit 846330873695345632481640856814494281100, nat_lit 17461007378913963102555077429556517156800, nat_lit 100336748713869330409674051102927662110⟩,
  ⟨nat_lit 846330873695345632481640856814494281100, nat_lit 17461007378913963102555077429556517156800, nat_lit 846330873695345632481640856814494281100, nat_lit 100336748713869330409674051102927662110⟩,
  ⟨nat_lit 17461007378913963102555077429556517156800, nat_lit 846330873695345632481640856814494281100, nat_lit 846330873695345632481640856814494281100, nat_lit 100336748713869330409674051102927662110⟩,
  ⟨nat_lit 846330873695345632481640856814494281100, nat_lit 846330873695345632481640856814494281100, nat_lit 846330873695345632481640856814494281100, nat_lit 100336748713869330409674051102927662110⟩,
  ⟨nat_lit 6283634182480779907266575468762633729800, nat_lit 6283634182480779907266575468762633729800, nat_lit 1149097452557660278200273593712098810500, nat_lit 556850438092465302759718131717488342230⟩,
  ⟨nat_lit 6283634182480779907266575468762633729800, nat_lit 1149097452557660278200273593712098810500, nat_lit 6283634182480779907266575468762633729800, nat_lit 556850438092465302759718131717488342230⟩,
  ⟨nat_lit 1149097452557660278200273593712098810500, nat_lit 6283634182480779907266575468762633729800, nat_lit 6283634182480779907266575468762633729800, nat_lit 556850438092465302759718131717488342230⟩,
  ⟨nat_lit 6283634182480779907266575468762633729800, nat_lit 6283634182480779907266575468762633729800, nat_lit 6283634182480779907266575468762633729800, nat_lit 556850438092465302759718131717488342230⟩,
  ⟨nat_lit 8711826571676604104562663235931940647400, nat_lit 1288173428323395895437336764068059352600, nat_lit 1288173428323395895437336764068059352600, nat_lit 483745736817450973349593628644577834120⟩,
  ⟨nat_lit 1288173428323395895437336764068059352600, nat_lit 8711826571676604104562663235931940647400, nat_lit 1288173428323395895437336764068059352600, nat_lit 483745736817450973349593628644577834120⟩,
  ⟨nat_lit 8711826571676604104562663235931940647400, nat_lit 8711826571676604104562663235931940647400, nat_lit 1288173428323395895437336764068059352600, nat_lit 483745736817450973349593628644577834120⟩,
  ⟨nat_lit 8711826571676604104562663235931940647400, nat_lit 1288173428323395895437336764068059352600, nat_lit 8711826571676604104562663235931940647400, nat_lit 483745736817450973349593628644577834120⟩,
  ⟨nat_lit 1288173428323395895437336764068059352600, nat_lit 8711826571676604104562663235931940647400, nat_lit 8711826571676604104562663235931940647400, nat_lit 483745736817450973349593628644577834120⟩,
  ⟨nat_lit 1288173428323395895437336764068059352600, nat_lit 1288173428323395895437336764068059352600, nat_lit 8711826571676604104562663235931940647400, nat_lit 483745736817450973349593628644577834120⟩,
  ⟨nat_lit 14349281268526166465800571142511629008800, nat_lit 428678602542611496889981788464688103700, nat_lit 4793361526388610540419465280558994783900, nat_lit 95425371877925775336250150191510735196⟩,
  ⟨nat_lit 14349281268526166465800571142511629008800, nat_lit 428678602542611496889981788464688103700, nat_lit 428678602542611496889981788464688103700, nat_lit 95425371877925775336250150191510735196⟩,
  ⟨nat_lit 428678602542611496889981788464688103700, nat_lit 428678602542611496889981788464688103700, nat_lit 14349281268526166465800571142511629008800, nat_lit 95425371877925775336250150191510735196⟩,
  ⟨nat_lit 4793361526388610540419465280558994783900, nat_lit 14349281268526166465800571142511629008800, nat_lit 428678602542611496889981788464688103700, nat_lit 95425371877925775336250150191510735196⟩,
  ⟨nat_lit 428678602542611496889981788464688103700, nat_lit 4793361526388610540419465280558994783900, nat_lit 14349281268526166465800571142511629008800, nat_lit 95425371877925775336250150191510735196⟩,
  ⟨nat_lit 428678602542611496889981788464688103700, nat_lit 14349281268526166465800571142511629008800, nat_lit 428678602542611496889981788464688103700, nat_lit 95425371877925775336250150191510735196⟩,
  ⟨nat_lit 4793361526388610540419465280558994783900, nat_lit 428678602542611496889981788464688103700, nat_lit 14349281268526166465800571142511629008800, nat_lit 95425371877925775336250150191510735196⟩,
  ⟨nat_lit 428678602542611496889981788464688103700, nat_lit 4793361526388610540419465280558994783900, nat_lit 428678602542611496889981788464688103700, nat_lit 95425371877925775336250150191510735196⟩,
  ⟨nat_lit 428678602542611496889981788464688103700, nat_lit 428678602542611496889981788464688103700, nat_lit 4793361526388610540419465280558994783900, nat_lit 95425371877925775336250150191510735196⟩,
  ⟨nat_lit 428678602542611496889981788464688103700, nat_lit 14349281268526166465800571142511629008800, nat_lit 4793361526388610540419465280558994783900, nat_lit 95425371877925775336250150191510735196⟩,
  ⟨nat_lit 4793361526388610540419465280558994783900, nat_lit 428678602542611496889981788464688103700, nat_lit 428678602542611496889981788464688103700, nat_lit 95425371877925775336250150191510735196⟩,
  ⟨nat_lit 14349281268526166465800571142511629008800, nat_lit 4793361526388610540419465280558994783900, nat_lit 428678602542611496889981788464688103700, nat_lit 95425371877925775336250150191510735196⟩,
  ⟨nat_lit 11675947566042888118533395084146600528300, nat_lit 4082786677520582408605805975603691175800, nat_lit 158479078915947064254992964646017120100, nat_lit 206046482012804464180404340343444439050⟩,
  ⟨nat_lit 11675947566042888118533395084146600528300, nat_lit 4082786677520582408605805975603691175800, nat_lit 4082786677520582408605805975603691175800, nat_lit 206046482012804464180404340343444439050⟩,
  ⟨nat_lit 4082786677520582408605805975603691175800, nat_lit 4082786677520582408605805975603691175800, nat_lit 11675947566042888118533395084146600528300, nat_lit 206046482012804464180404340343444439050⟩,
  ⟨nat_lit 158479078915947064254992964646017120100, nat_lit 11675947566042888118533395084146600528300, nat_lit 4082786677520582408605805975603691175800, nat_lit 206046482012804464180404340343444439050⟩,
  ⟨nat_lit 4082786677520582408605805975603691175800, nat_lit 158479078915947064254992964646017120100, nat_lit 11675947566042888118533395084146600528300, nat_lit 206046482012804464180404340343444439050⟩,
  ⟨nat_lit 4082786677520582408605805975603691175800, nat_lit 11675947566042888118533395084146600528300, nat_lit 4082786677520582408605805975603691175800, nat_lit 206046482012804464180404340343444439050⟩,
  ⟨nat_lit 158479078915947064254992964646017120100, nat_lit 4082786677520582408605805975603691175800, nat_lit 11675947566042888118533395084146600528300, nat_lit 206046482012804464180404340343444439050⟩,
  ⟨nat_lit 4082786677520582408605805975603691175800, nat_lit 158479078915947064254992964646017120100, nat_lit 4082786677520582408605805975603691175800, nat_lit 206046482012804464180404340343444439050⟩,
  ⟨nat_lit 4082786677520582408605805975603691175800, nat_lit 4082786677520582408605805975603691175800, nat_lit 158479078915947064254992964646017120100, nat_lit 206046482012804464180404340343444439050⟩,
  ⟨nat_lit 4082786677520582408605805975603691175800, nat_lit 11675947566042888118533395084146600528300, nat_lit 158479078915947064254992964646017120100, nat_lit 206046482012804464180404340343444439050⟩,
  ⟨nat_lit 158479078915947064254992964646017120100, nat_lit 4082786677520582408605805975603691175800, nat_lit 4082786677520582408605805975603691175800, nat_lit 206046482012804464180404340343444439050⟩,
  ⟨nat_lit 11675947566042888118533395084146600528300, nat_lit 158479078915947064254992964646017120100, nat_lit 4082786677520582408605805975603691175800, nat_lit 206046482012804464180404340343444439050⟩]

theorem tet8_eq : normWV3 tet8 = some tet8N := by decide +kernel
theorem tet8_in : all3In (2 * 10 ^ 40) tet8N = true := by decide +kernel
theorem tet8_ok : all3 (2 * 10 ^ 40) (8 * 10 ^ 40) (10 ^ 38) tet8N 8 = true := by decide +kernel

def tet9N : List Pt3 := [
  ⟨nat_lit 500000000000000000000000000000000000000000, nat_lit 500000000000000000000000000000000000000000, nat_lit 500000000000000000000000000000000000000000, nat_lit 77347398549973676447419062575537299180000⟩,
  ⟨nat_lit 1239633988909301684708380145770000, nat_lit 1239633988909301684708380145770000, nat_lit 1999999996281098033272094945874859562700000, nat_lit 85759042345675186085903030258742437834⟩,
  ⟨nat_lit 1239633988909301684708380145770000, nat_lit 1999999996281098033272094945874859562700000, nat_lit 1239633988909301684708380145770000, nat_lit 85759042345675186085903030258742437834⟩,
  ⟨nat_lit 1999999996281098033272094945874859562700000, nat_lit 1239633988909301684708380145770000, nat_lit 1239633988909301684708380145770000, nat_lit 85759042345675186085903030258742437834⟩,
  ⟨nat_lit 1239633988909301684708380145770000, nat_lit 1239633988909301684708380145770000, nat_lit 1239633988909301684708380145770000, nat_lit 85759042345675186085903030258742437834⟩,
  ⟨nat_lit 321549070790523188303982877770783961470000, nat_lit 321549070790523188303982877770783961470000, nat_lit 1035352787628430435088051366687648115583000, nat_lit 30897784616567277310532826869162311937000⟩,
  ⟨nat_lit 321549070790523188303982877770783961470000, nat_lit 1035352787628430435088051366687648115583000, nat_lit 321549070790523188303982877770783961470000, nat_lit 30897784616567277310532826869162311937000⟩,
  ⟨nat_lit 1035352787628430435088051366687648115583000, nat_lit 321549070790523188303982877770783961470000, nat_lit 321549070790523188303982877770783961470000, nat_lit 30897784616567277310532826869162311937000⟩,
  ⟨nat_lit 321549070790523188303982877770783961470000, nat_lit 321549070790523188303982877770783961470000, nat_lit 321549070790523188303982877770783961470000, nat_lit 30897784616567277310532826869162311937000⟩,
  ⟨nat_lit 644553043642841948408136196807778659730000, nat_lit 644553043642841948408136196807778659730000, nat_lit 66340869071474154775591409576664020810000, nat_lit 39417216447239047523644877985518239107000⟩,
  ⟨nat_lit 644553043642841948408136196807778659730000, nat_lit 66340869071474154775591409576664020810000, nat_lit 644553043642841948408136196807778659730000, nat_lit 39417216447239047523644877985518239107000⟩,
  ⟨nat_lit 66340869071474154775591409576664020810000, nat_lit 644553043642841948408136196807778659730000, nat_lit 644553043642841948408136196807778659730000, nat_lit 39417216447239047523644877985518239107000⟩,
  ⟨nat_lit 644553043642841948408136196807778659730000, nat_lit 644553043642841948408136196807778659730000, nat_lit 644553043642841948408136196807778659730000, nat_lit 39417216447239047523644877985518239107000⟩,
  ⟨nat_lit 90217836690827165921926144987993856690000, nat_lit 90217836690827165921926144987993856690000, nat_lit 1729346489927518502234221565036018429940000, nat_lit 10751973306154910354337519688619045729000⟩,
  ⟨nat_lit 90217836690827165921926144987993856690000, nat_lit 1729346489927518502234221565036018429940000, nat_lit 90217836690827165921926144987993856690000, nat_lit 10751973306154910354337519688619045729000⟩,
  ⟨nat_lit 1729346489927518502234221565036018429940000, nat_lit 90217836690827165921926144987993856690000, nat_lit 90217836690827165921926144987993856690000, nat_lit 10751973306154910354337519688619045729000⟩,
  ⟨nat_lit 90217836690827165921926144987993856690000, nat_lit 90217836690827165921926144987993856690000, nat_lit 90217836690827165921926144987993856690000, nat_lit 10751973306154910354337519688619045729000⟩,
  ⟨nat_lit 224593092008752090655979299060311242710000, nat_lit 775406907991247909344020700939688757290000, nat_lit 775406907991247909344020700939688757290000, nat_lit 50845440138269954068897481311360914750000⟩,
  ⟨nat_lit 775406907991247909344020700939688757290000, nat_lit 224593092008752090655979299060311242710000, nat_lit 775406907991247909344020700939688757290000, nat_lit 50845440138269954068897481311360914750000⟩,
  ⟨nat_lit 224593092008752090655979299060311242710000, nat_lit 224593092008752090655979299060311242710000, nat_lit 775406907991247909344020700939688757290000, nat_lit 50845440138269954068897481311360914750000⟩,
  ⟨nat_lit 224593092008752090655979299060311242710000, nat_lit 775406907991247909344020700939688757290000, nat_lit 224593092008752090655979299060311242710000, nat_lit 50845440138269954068897481311360914750000⟩,
  ⟨nat_lit 775406907991247909344020700939688757290000, nat_lit 224593092008752090655979299060311242710000, nat_lit 224593092008752090655979299060311242710000, nat_lit 50845440138269954068897481311360914750000⟩,
  ⟨nat_lit 775406907991247909344020700939688757290000, nat_lit 775406907991247909344020700939688757290000, nat_lit 224593092008752090655979299060311242710000, nat_lit 50845440138269954068897481311360914750000⟩,
  ⟨nat_lit 5109158466082661935288050896744685000000, nat_lit 917742897504918546543564218401002953754000, nat_lit 159405046524080244977583512301249407490000, nat_lit 11179229597731402927583520512290878612000⟩,
  ⟨nat_lit 5109158466082661935288050896744685000000, nat_lit 917742897504918546543564218401002953754000, nat_lit 917742897504918546543564218401002953754000, nat_lit 11179229597731402927583520512290878612000⟩,
  ⟨nat_lit 917742897504918546543564218401002953754000, nat_lit 917742897504918546543564218401002953754000, nat_lit 5109158466082661935288050896744685000000, nat_lit 11179229597731402927583520512290878612000⟩,
  ⟨nat_lit 159405046524080244977583512301249407490000, nat_lit 5109158466082661935288050896744685000000, nat_lit 917742897504918546543564218401002953754000, nat_lit 11179229597731402927583520512290878612000⟩,
  ⟨nat_lit 917742897504918546543564218401002953754000, nat_lit 159405046524080244977583512301249407490000, nat_lit 5109158466082661935288050896744685000000, nat_lit 11179229597731402927583520512290878612000⟩,
  ⟨nat_lit 917742897504918546543564218401002953754000, nat_lit 5109158466082661935288050896744685000000, nat_lit 917742897504918546543564218401002953754000, nat_lit 11179229597731402927583520512290878612000⟩,
  ⟨nat_lit 159405046524080244977583512301249407490000, nat_lit 917742897504918546543564218401002953754000, nat_lit 5109158466082661935288050896744685000000, nat_lit 11179229597731402927583520512290878612000⟩,
  ⟨nat_lit 917742897504918546543564218401002953754000, nat_lit 159405046524080244977583512301249407490000, nat_lit 917742897504918546543564218401002953754000, nat_lit 11179229597731402927583520512290878612000⟩,
  ⟨nat_lit 917742897504918546543564218401002953754000, nat_lit 917742897504918546543564218401002953754000, nat_lit 159405046524080244977583512301249407490000, nat_lit 11179229597731402927583520512290878612000⟩,
  ⟨nat_lit 917742897504918546543564218401002953754000, nat_lit 5109158466082661935288050896744685000000, nat_lit 159405046524080244977583512301249407490000, nat_lit 11179229597731402927583520512290878612000⟩,
  ⟨nat_lit 159405046524080244977583512301249407490000, nat_lit 917742897504918546543564218401002953754000, nat_lit 917742897504918546543564218401002953754000, nat_lit 11179229597731402927583520512290878612000⟩,
  ⟨nat_lit 5109158466082661935288050896744685000000, nat_lit 159405046524080244977583512301249407490000, nat_lit 917742897504918546543564218401002953754000, nat_lit 11179229597731402927583520512290878612000⟩,
  ⟨nat_lit 1436700652884149018113544489129287500120000, nat_lit 67551741370677155810972627978405862810000, nat_lit 428195864374496670264510254913900774260000, nat_lit 13646079136993770600501763121325612648000⟩,
  ⟨nat_lit 1436700652884149018113544489129287500120000, nat_lit 67551741370677155810972627978405862810000, nat_lit 67551741370677155810972627978405862810000, nat_lit 13646079136993770600501763121325612648000⟩,
  ⟨nat_lit 67551741370677155810972627978405862810000, nat_lit 67551741370677155810972627978405862810000, nat_lit 1436700652884149018113544489129287500120000, nat_lit 13646079136993770600501763121325612648000⟩,
  ⟨nat_lit 428195864374496670264510254913900774260000, nat_lit 1436700652884149018113544489129287500120000, nat_lit 67551741370677155810972627978405862810000, nat_lit 13646079136993770600501763121325612648000⟩,
  ⟨nat_lit 67551741370677155810972627978405862810000, nat_lit 428195864374496670264510254913900774260000, nat_lit 1436700652884149018113544489129287500120000, nat_lit 13646079136993770600501763121325612648000⟩,
  ⟨nat_lit 67551741370677155810972627978405862810000, nat_lit 1436700652884149018113544489129287500120000, nat_lit 67551741370677155810972627978405862810000, nat_lit 13646079136993770600501763121325612648000⟩,
  ⟨nat_lit 428195864374496670264510254913900774260000, nat_lit 67551741370677155810972627978405862810000, nat_lit 1436700652884149018113544489129287500120000, nat_lit 13646079136993770600501763121325612648000⟩,
  ⟨nat_lit 67551741370677155810972627978405862810000, nat_lit 428195864374496670264510254913900774260000, nat_lit 67551741370677155810972627978405862810000, nat_lit 13646079136993770600501763121325612648000⟩,
  ⟨nat_lit 67551741370677155810972627978405862810000, nat_lit 67551741370677155810972627978405862810000, nat_lit 428195864374496670264510254913900774260000, nat_lit 13646079136993770600501763121325612648000⟩,
  ⟨nat_lit 67551741370677155810972627978405862810000, nat_lit 1436700652884149018113544489129287500120000, nat_lit 428195864374496670264510254913900774260000, nat_lit 13646079136993770600501763121325612648000⟩,
  ⟨nat_lit 428195864374496670264510254913900774260000, nat_lit 67551741370677155810972627978405862810000, nat_lit 67551741370677155810972627978405862810000, nat_lit 13646079136993770600501763121325612648000⟩,
  ⟨nat_lit 1436700652884149018113544489129287500120000, nat_lit 428195864374496670264510254913900774260000, nat_lit 67551741370677155810972627978405862810000, nat_lit 13646079136993770600501763121325612648000⟩,
  ⟨nat_lit 68831821156350540178410424222863713310000, nat_lit 367282739619855779577937419712738453170000, nat_lit 1196602699603937900665714736351659380350000, nat_lit 27366554623984184053091789082666607808000⟩,
  ⟨nat_lit 68831821156350540178410424222863713310000, nat_lit 367282739619855779577937419712738453170000, nat_lit 367282739619855779577937419712738453170000, nat_lit 27366554623984184053091789082666607808000⟩,
  ⟨nat_lit 367282739619855779577937419712738453170000, nat_lit 367282739619855779577937419712738453170000, nat_lit 68831821156350540178410424222863713310000, nat_lit 27366554623984184053091789082666607808000⟩,
  ⟨nat_lit 1196602699603937900665714736351659380350000, nat_lit 68831821156350540178410424222863713310000, nat_lit 367282739619855779577937419712738453170000, nat_lit 27366554623984184053091789082666607808000⟩,
  ⟨nat_lit 367282739619855779577937419712738453170000, nat_lit 1196602699603937900665714736351659380350000, nat_lit 68831821156350540178410424222863713310000, nat_lit 27366554623984184053091789082666607808000⟩,
  ⟨nat_lit 367282739619855779577937419712738453170000, nat_lit 68831821156350540178410424222863713310000, nat_lit 367282739619855779577937419712738453170000, nat_lit 27366554623984184053091789082666607808000⟩,
  ⟨nat_lit 1196602699603937900665714736351659380350000, nat_lit 367282739619855779577937419712738453170000, nat_lit 68831821156350540178410424222863713310000, nat_lit 27366554623984184053091789082666607808000⟩,
  ⟨nat_lit 367282739619855779577937419712738453170000, nat_lit 1196602699603937900665714736351659380350000, nat_lit 367282739619855779577937419712738453170000, nat_lit 27366554623984184053091789082666607808000⟩,
  ⟨nat_lit 367282739619855779577937419712738453170000, nat_lit 367282739619855779577937419712738453170000, nat_lit 1196602699603937900665714736351659380350000, nat_lit 27366554623984184053091789082666607808000⟩,
  ⟨nat_lit 367282739619855779577937419712738453170000, nat_lit 68831821156350540178410424222863713310000, nat_lit 1196602699603937900665714736351659380350000, nat_lit 27366554623984184053091789082666607808000⟩,
  ⟨nat_lit 1196602699603937900665714736351659380350000, nat_lit 367282739619855779577937419712738453170000, nat_lit 367282739619855779577937419712738453170000, nat_lit 27366554623984184053091789082666607808000⟩,
  ⟨nat_lit 68831821156350540178410424222863713310000, nat_lit 1196602699603937900665714736351659380350000, nat_lit 367282739619855779577937419712738453170000, nat_lit 27366554623984184053091789082666607808000⟩]

theorem tet9_eq : normWV3 tet9 = some tet9N := by decide +kernel
theorem tet9_in : all3In (2 * 10 ^ 42) tet9N = true := by decide +kernel
theorem tet9_ok : all3 (2 * 10 ^ 42) (8 * 10 ^ 42) (10 ^ 38) tet9N 9 = true := by decide +kernel

def tet10N : List Pt3 := [
  ⟨nat_lit 50000000000000000000000000000000000000000, nat_lit 50000000000000000000000000000000000000000, nat_lit 50000000000000000000000000000000000000000, nat_lit 6319969807469431784631842823740146613400⟩,
  ⟨nat_lit 62450013739037729545961663737365491040000, nat_lit 62450013739037729545961663737365491040000, nat_lit 12649958782886811362115008787903526881000, nat_lit 3591607998969159973701888133984277861500⟩,
  ⟨nat_lit 62450013739037729545961663737365491040000, nat_lit 12649958782886811362115008787903526881000, nat_lit 62450013739037729545961663737365491040000, nat_lit 3591607998969159973701888133984277861500⟩,
  ⟨nat_lit 12649958782886811362115008787903526881000, nat_lit 62450013739037729545961663737365491040000, nat_lit 62450013739037729545961663737365491040000, nat_lit 3591607998969159973701888133984277861500⟩,
  ⟨nat_lit 62450013739037729545961663737365491040000, nat_lit 62450013739037729545961663737365491040000, nat_lit 62450013739037729545961663737365491040000, nat_lit 3591607998969159973701888133984277861500⟩,
  ⟨nat_lit 22861930771469230117474239530730089058000, nat_lit 22861930771469230117474239530730089058000, nat_lit 131414207685592309647577281407809732827000, nat_lit 1315887962239117764607698057356410169300⟩,
  ⟨nat_lit 22861930771469230117474239530730089058000, nat_lit 131414207685592309647577281407809732827000, nat_lit 22861930771469230117474239530730089058000, nat_lit 1315887962239117764607698057356410169300⟩,
  ⟨nat_lit 131414207685592309647577281407809732827000, nat_lit 22861930771469230117474239530730089058000, nat_lit 22861930771469230117474239530730089058000, nat_lit 1315887962239117764607698057356410169300⟩,
  ⟨nat_lit 22861930771469230117474239530730089058000, nat_lit 22861930771469230117474239530730089058000, nat_lit 22861930771469230117474239530730089058000, nat_lit 1315887962239117764607698057356410169300⟩,
  ⟨nat_lit 33097205123922210320898024888905282905000, nat_lit 82086147843793098857579568850302337498000, nat_lit 2730499188491591963942837410490042099000, nat_lit 1519184162692697549816124650761911419500⟩,
  ⟨nat_lit 33097205123922210320898024888905282905000, nat_lit 82086147843793098857579568850302337498000, nat_lit 82086147843793098857579568850302337498000, nat_lit 1519184162692697549816124650761911419500⟩,
  ⟨nat_lit 82086147843793098857579568850302337498000, nat_lit 82086147843793098857579568850302337498000, nat_lit 33097205123922210320898024888905282905000, nat_lit 1519184162692697549816124650761911419500⟩,
  ⟨nat_lit 2730499188491591963942837410490042099000, nat_lit 33097205123922210320898024888905282905000, nat_lit 82086147843793098857579568850302337498000, nat_lit 1519184162692697549816124650761911419500⟩,
  ⟨nat_lit 82086147843793098857579568850302337498000, nat_lit 2730499188491591963942837410490042099000, nat_lit 33097205123922210320898024888905282905000, nat_lit 1519184162692697549816124650761911419500⟩,
  ⟨nat_lit 82086147843793098857579568850302337498000, nat_lit 33097205123922210320898024888905282905000, nat_lit 82086147843793098857579568850302337498000, nat_lit 1519184162692697549816124650761911419500⟩,
  ⟨nat_lit 2730499188491591963942837410490042099000, nat_lit 82086147843793098857579568850302337498000, nat_lit 33097205123922210320898024888905282905000, nat_lit 1519184162692697549816124650761911419500⟩,
  ⟨nat_lit 82086147843793098857579568850302337498000, nat_lit 2730499188491591963942837410490042099000, nat_lit 82086147843793098857579568850302337498000, nat_lit 1519184162692697549816124650761911419500⟩,
  ⟨nat_lit 82086147843793098857579568850302337498000, nat_lit 82086147843793098857579568850302337498000, nat_lit 2730499188491591963942837410490042099000, nat_lit 1519184162692697549816124650761911419500⟩,
  ⟨nat_lit 82086147843793098857579568850302337498000, nat_lit 33097205123922210320898024888905282905000, nat_lit 2730499188491591963942837410490042099000, nat_lit 1519184162692697549816124650761911419500⟩,
  ⟨nat_lit 2730499188491591963942837410490042099000, nat_lit 82086147843793098857579568850302337498000, nat_lit 82086147843793098857579568850302337498000, nat_lit 1519184162692697549816124650761911419500⟩,
  ⟨nat_lit 33097205123922210320898024888905282905000, nat_lit 2730499188491591963942837410490042099000, nat_lit 82086147843793098857579568850302337498000, nat_lit 1519184162692697549816124650761911419500⟩,
  ⟨nat_lit 188597753469040973239526117383650152590000, nat_lit 1227601764958149569518742649683070215000, nat_lit 8947043001042727621436397316983706980000, nat_lit 48259245911900483231983784641134908616⟩,
  ⟨nat_lit 188597753469040973239526117383650152590000, nat_lit 1227601764958149569518742649683070215000, nat_lit 1227601764958149569518742649683070215000, nat_lit 48259245911900483231983784641134908616⟩,
  ⟨nat_lit 1227601764958149569518742649683070215000, nat_lit 1227601764958149569518742649683070215000, nat_lit 188597753469040973239526117383650152590000, nat_lit 48259245911900483231983784641134908616⟩,
  ⟨nat_lit 8947043001042727621436397316983706980000, nat_lit 188597753469040973239526117383650152590000, nat_lit 1227601764958149569518742649683070215000, nat_lit 48259245911900483231983784641134908616⟩,
  ⟨nat_lit 1227601764958149569518742649683070215000, nat_lit 8947043001042727621436397316983706980000, nat_lit 188597753469040973239526117383650152590000, nat_lit 48259245911900483231983784641134908616⟩,
  ⟨nat_lit 1227601764958149569518742649683070215000, nat_lit 188597753469040973239526117383650152590000, nat_lit 1227601764958149569518742649683070215000, nat_lit 48259245911900483231983784641134908616⟩,
  ⟨nat_lit 8947043001042727621436397316983706980000, nat_lit 1227601764958149569518742649683070215000, nat_lit 188597753469040973239526117383650152590000, nat_lit 48259245911900483231983784641134908616⟩,
  ⟨nat_lit 1227601764958149569518742649683070215000, nat_lit 8947043001042727621436397316983706980000, nat_lit 1227601764958149569518742649683070215000, nat_lit 48259245911900483231983784641134908616⟩,
  ⟨nat_lit 1227601764958149569518742649683070215000, nat_lit 1227601764958149569518742649683070215000, nat_lit 8947043001042727621436397316983706980000, nat_lit 48259245911900483231983784641134908616⟩,
  ⟨nat_lit 1227601764958149569518742649683070215000, nat_lit 188597753469040973239526117383650152590000, nat_lit 8947043001042727621436397316983706980000, nat_lit 48259245911900483231983784641134908616⟩,
  ⟨nat_lit 8947043001042727621436397316983706980000, nat_lit 1227601764958149569518742649683070215000, nat_lit 1227601764958149569518742649683070215000, nat_lit 48259245911900483231983784641134908616⟩,
  ⟨nat_lit 188597753469040973239526117383650152590000, nat_lit 8947043001042727621436397316983706980000, nat_lit 1227601764958149569518742649683070215000, nat_lit 48259245911900483231983784641134908616⟩,
  ⟨nat_lit 95438075980856070108821281659381444124900, nat_lit 24210036229117885198779000319010105526000, nat_lit 56141851560908159493620717702598344824000, nat_lit 3431964264060809503871468301287294021400⟩,
  ⟨nat_lit 95438075980856070108821281659381444124900, nat_lit 24210036229117885198779000319010105526000, nat_lit 24210036229117885198779000319010105526000, nat_lit 3431964264060809503871468301287294021400⟩,
  ⟨nat_lit 24210036229117885198779000319010105526000, nat_lit 24210036229117885198779000319010105526000, nat_lit 95438075980856070108821281659381444124900, nat_lit 3431964264060809503871468301287294021400⟩,
  ⟨nat_lit 56141851560908159493620717702598344824000, nat_lit 95438075980856070108821281659381444124900, nat_lit 24210036229117885198779000319010105526000, nat_lit 3431964264060809503871468301287294021400⟩,
  ⟨nat_lit 24210036229117885198779000319010105526000, nat_lit 56141851560908159493620717702598344824000, nat_lit 95438075980856070108821281659381444124900, nat_lit 3431964264060809503871468301287294021400⟩,
  ⟨nat_lit 24210036229117885198779000319010105526000, nat_lit 95438075980856070108821281659381444124900, nat_lit 24210036229117885198779000319010105526000, nat_lit 3431964264060809503871468301287294021400⟩,
  ⟨nat_lit 56141851560908159493620717702598344824000, nat_lit 24210036229117885198779000319010105526000, nat_lit 95438075980856070108821281659381444124900, nat_lit 3431964264060809503871468301287294021400⟩,
  ⟨nat_lit 24210036229117885198779000319010105526000, nat_lit 56141851560908159493620717702598344824000, nat_lit 24210036229117885198779000319010105526000, nat_lit 3431964264060809503871468301287294021400⟩,
  ⟨nat_lit 24210036229117885198779000319010105526000, nat_lit 24210036229117885198779000319010105526000, nat_lit 56141851560908159493620717702598344824000, nat_lit 3431964264060809503871468301287294021400⟩,
  ⟨nat_lit 24210036229117885198779000319010105526000, nat_lit 95438075980856070108821281659381444124900, nat_lit 56141851560908159493620717702598344824000, nat_lit 3431964264060809503871468301287294021400⟩,
  ⟨nat_lit 56141851560908159493620717702598344824000, nat_lit 24210036229117885198779000319010105526000, nat_lit 24210036229117885198779000319010105526000, nat_lit 3431964264060809503871468301287294021400⟩,
  ⟨nat_lit 95438075980856070108821281659381444124900, nat_lit 56141851560908159493620717702598344824000, nat_lit 24210036229117885198779000319010105526000, nat_lit 3431964264060809503871468301287294021400⟩,
  ⟨nat_lit 118851253896001405132314006877136059652000, nat_lit 6555893643288534154944204066464838082000, nat_lit 68036958817421526557797584989934264185000, nat_lit 1351449557300772371802196015335570292800⟩,
  ⟨nat_lit 118851253896001405132314006877136059652000, nat_lit 6555893643288534154944204066464838082000, nat_lit 6555893643288534154944204066464838082000, nat_lit 1351449557300772371802196015335570292800⟩,
  ⟨nat_lit 6555893643288534154944204066464838082000, nat_lit 6555893643288534154944204066464838082000, nat_lit 118851253896001405132314006877136059652000, nat_lit 1351449557300772371802196015335570292800⟩,
  ⟨nat_lit 68036958817421526557797584989934264185000, nat_lit 118851253896001405132314006877136059652000, nat_lit 6555893643288534154944204066464838082000, nat_lit 1351449557300772371802196015335570292800⟩,
  ⟨nat_lit 6555893643288534154944204066464838082000, nat_lit 68036958817421526557797584989934264185000, nat_lit 118851253896001405132314006877136059652000, nat_lit 1351449557300772371802196015335570292800⟩,
  ⟨nat_lit 6555893643288534154944204066464838082000, nat_lit 118851253896001405132314006877136059652000, nat_lit 6555893643288534154944204066464838082000, nat_lit 1351449557300772371802196015335570292800⟩,
  ⟨nat_lit 68036958817421526557797584989934264185000, nat_lit 6555893643288534154944204066464838082000, nat_lit 118851253896001405132314006877136059652000, nat_lit 1351449557300772371802196015335570292800⟩,
  ⟨nat_lit 6555893643288534154944204066464838082000, nat_lit 68036958817421526557797584989934264185000, nat_lit 6555893643288534154944204066464838082000, nat_lit 1351449557300772371802196015335570292800⟩,
  ⟨nat_lit 6555893643288534154944204066464838082000, nat_lit 6555893643288534154944204066464838082000, nat_lit 68036958817421526557797584989934264185000, nat_lit 1351449557300772371802196015335570292800⟩,
  ⟨nat_lit 6555893643288534154944204066464838082000, nat_lit 118851253896001405132314006877136059652000, nat_lit 68036958817421526557797584989934264185000, nat_lit 1351449557300772371802196015335570292800⟩,
  ⟨nat_lit 68036958817421526557797584989934264185000, nat_lit 6555893643288534154944204066464838082000, nat_lit 6555893643288534154944204066464838082000, nat_lit 1351449557300772371802196015335570292800⟩,
  ⟨nat_lit 118851253896001405132314006877136059652000, nat_lit 68036958817421526557797584989934264185000, nat_lit 6555893643288534154944204066464838082000, nat_lit 1351449557300772371802196015335570292800⟩,
  ⟨nat_lit 160235456931668878246228336815716196359000, nat_lit 6497056312964609567102987995685239341000, nat_lit 26770430442401902619565687192913324959000, nat_lit 876819636938120555660765360060093479540⟩,
  ⟨nat_lit 160235456931668878246228336815716196359000, nat_lit 6497056312964609567102987995685239341000, nat_lit 6497056312964609567102987995685239341000, nat_lit 876819636938120555660765360060093479540⟩,
  ⟨nat_lit 6497056312964609567102987995685239341000, nat_lit 6497056312964609567102987995685239341000, nat_lit 160235456931668878246228336815716196359000, nat_lit 876819636938120555660765360060093479540⟩,
  ⟨nat_lit 26770430442401902619565687192913324959000, nat_lit 160235456931668878246228336815716196359000, nat_lit 6497056312964609567102987995685239341000, nat_lit 876819636938120555660765360060093479540⟩,
  ⟨nat_lit 6497056312964609567102987995685239341000, nat_lit 26770430442401902619565687192913324959000, nat_lit 160235456931668878246228336815716196359000, nat_lit 876819636938120555660765360060093479540⟩,
  ⟨nat_lit 6497056312964609567102987995685239341000, nat_lit 160235456931668878246228336815716196359000, nat_lit 6497056312964609567102987995685239341000, nat_lit 876819636938120555660765360060093479540⟩,
  ⟨nat_lit 26770430442401902619565687192913324959000, nat_lit 6497056312964609567102987995685239341000, nat_lit 160235456931668878246228336815716196359000, nat_lit 876819636938120555660765360060093479540⟩,
  ⟨nat_lit 6497056312964609567102987995685239341000, nat_lit 26770430442401902619565687192913324959000, nat_lit 6497056312964609567102987995685239341000, nat_lit 876819636938120555660765360060093479540⟩,
  ⟨nat_lit 6497056312964609567102987995685239341000, nat_lit 6497056312964609567102987995685239341000, nat_lit 26770430442401902619565687192913324959000, nat_lit 876819636938120555660765360060093479540⟩,
  ⟨nat_lit 6497056312964609567102987995685239341000, nat_lit 160235456931668878246228336815716196359000, nat_lit 26770430442401902619565687192913324959000, nat_lit 876819636938120555660765360060093479540⟩,
  ⟨nat_lit 26770430442401902619565687192913324959000, nat_lit 6497056312964609567102987995685239341000, nat_lit 6497056312964609567102987995685239341000, nat_lit 876819636938120555660765360060093479540⟩,
  ⟨nat_lit 160235456931668878246228336815716196359000, nat_lit 26770430442401902619565687192913324959000, nat_lit 6497056312964609567102987995685239341000, nat_lit 876819636938120555660765360060093479540⟩,
  ⟨nat_lit 125614369095073202138655214443581933130000, nat_lit 34995868436787804856989845305662079444000, nat_lit 4393894031351188147365094945093907982000, nat_lit 1720938106514932085239390699933198761200⟩,
  ⟨nat_lit 125614369095073202138655214443581933130000, nat_lit 34995868436787804856989845305662079444000, nat_lit 34995868436787804856989845305662079444000, nat_lit 1720938106514932085239390699933198761200⟩,
  ⟨nat_lit 34995868436787804856989845305662079444000, nat_lit 34995868436787804856989845305662079444000, nat_lit 125614369095073202138655214443581933130000, nat_lit 1720938106514932085239390699933198761200⟩,
  ⟨nat_lit 4393894031351188147365094945093907982000, nat_lit 125614369095073202138655214443581933130000, nat_lit 34995868436787804856989845305662079444000, nat_lit 1720938106514932085239390699933198761200⟩,
  ⟨nat_lit 34995868436787804856989845305662079444000, nat_lit 4393894031351188147365094945093907982000, nat_lit 125614369095073202138655214443581933130000, nat_lit 1720938106514932085239390699933198761200⟩,
  ⟨nat_lit 34995868436787804856989845305662079444000, nat_lit 125614369095073202138655214443581933130000, nat_lit 34995868436787804856989845305662079444000, nat_lit 1720938106514932085239390699933198761200⟩,
  ⟨nat_lit 4393894031351188147365094945093907982000, nat_lit 34995868436787804856989845305662079444000, nat_lit 125614369095073202138655214443581933130000, nat_lit 1720938106514932085239390699933198761200⟩,
  ⟨nat_lit 34995868436787804856989845305662079444000, nat_lit 4393894031351188147365094945093907982000, nat_lit 34995868436787804856989845305662079444000, nat_lit 1720938106514932085239390699933198761200⟩,
  ⟨nat_lit 34995868436787804856989845305662079444000, nat_lit 34995868436787804856989845305662079444000, nat_lit 4393894031351188147365094945093907982000, nat_lit 1720938106514932085239390699933198761200⟩,
  ⟨nat_lit 34995868436787804856989845305662079444000, nat_lit 125614369095073202138655214443581933130000, nat_lit 4393894031351188147365094945093907982000, nat_lit 1720938106514932085239390699933198761200⟩,
  ⟨nat_lit 4393894031351188147365094945093907982000, nat_lit 34995868436787804856989845305662079444000, nat_lit 34995868436787804856989845305662079444000, nat_lit 1720938106514932085239390699933198761200⟩,
  ⟨nat_lit 125614369095073202138655214443581933130000, nat_lit 4393894031351188147365094945093907982000, nat_lit 34995868436787804856989845305662079444000, nat_lit 1720938106514932085239390699933198761200⟩]

theorem tet10_eq : normWV3 tet10 = some tet10N := by decide +kernel
theorem tet10_in : all3In (2 * 10 ^ 41) tet10N = true := by decide +kernel
theorem tet10_ok : all3 (2 * 10 ^ 41) (8 * 10 ^ 41) (10 ^ 38) tet10N 10 = true := by decide +kernel

end Tandem.QuadTable
