import Verif.Lemmas.GaussCert
/-! Generated by tools/gen_gauss.py: certified points and weights of the Gauss-Legendre rules with up to 11 points and
of the Gauss-Jacobi rule with two points and exponent one. -/
namespace Tandem.NewtonCert

def deltaQ : ℚ := 1 / 10 ^ 13
def epsQ : ℚ := 1 / 10 ^ 28

def g1 : List Cert := [
  ⟨0, 101 / 100000000, 223 / 100000000000000000, 2⟩]

theorem g1_ok : certsOk 1 0 deltaQ 0 g1 = true := by decide +kernel
theorem g1_line : lineOk 1 epsQ g1 = true := by decide +kernel

def g2 : List Cert := [
  ⟨288675134594812882254574390251 / 500000000000000000000000000000, 23 / 2000, 131 / 100000000000000000, 1⟩,
  ⟨-288675134594812882254574390251 / 500000000000000000000000000000, 23 / 2000, 131 / 100000000000000000, 1⟩]

theorem g2_ok : certsOk 2 0 deltaQ 0 g2 = true := by decide +kernel
theorem g2_line : lineOk 3 epsQ g2 = true := by decide +kernel

def g3 : List Cert := [
  ⟨193649167310370844258963269989 / 250000000000000000000000000000, 199 / 25000, 191 / 250000000000000000, 111111111111111111111111111111 / 200000000000000000000000000000⟩,
  ⟨0, 101 / 100000000, 149 / 100000000000000000, 888888888888888888888888888889 / 1000000000000000000000000000000⟩,
  ⟨-193649167310370844258963269989 / 250000000000000000000000000000, 199 / 25000, 191 / 250000000000000000, 111111111111111111111111111111 / 200000000000000000000000000000⟩]

theorem g3_ok : certsOk 3 0 deltaQ 0 g3 = true := by decide +kernel
theorem g3_line : lineOk 5 epsQ g3 = true := by decide +kernel

def g4 : List Cert := [
  ⟨861136311594052575223946488893 / 1000000000000000000000000000000, 269 / 50000, 489 / 1000000000000000000, 347854845137453857373063949223 / 1000000000000000000000000000000⟩,
  ⟨339981043584856264802665759103 / 1000000000000000000000000000000, 9 / 4000, 3 / 2500000000000000, 326072577431273071313468025389 / 500000000000000000000000000000⟩,
  ⟨-339981043584856264802665759103 / 1000000000000000000000000000000, 9 / 4000, 3 / 2500000000000000, 326072577431273071313468025389 / 500000000000000000000000000000⟩,
  ⟨-861136311594052575223946488893 / 1000000000000000000000000000000, 269 / 50000, 489 / 1000000000000000000, 347854845137453857373063949223 / 1000000000000000000000000000000⟩]

theorem g4_ok : certsOk 4 0 deltaQ 0 g4 = true := by decide +kernel
theorem g4_line : lineOk 7 epsQ g4 = true := by decide +kernel

def g5 : List Cert := [
  ⟨906179845938663992797626878299 / 1000000000000000000000000000000, 19 / 5000, 337 / 1000000000000000000, 118463442528094543757132020359 / 500000000000000000000000000000⟩,
  ⟨5384693101056830910363144207 / 10000000000000000000000000000, 239 / 100000, 919 / 1000000000000000000, 95725734099873293608258302967 / 200000000000000000000000000000⟩,
  ⟨0, 101 / 100000000, 119 / 100000000000000000, 568888888888888888888888888889 / 1000000000000000000000000000000⟩,
  ⟨-5384693101056830910363144207 / 10000000000000000000000000000, 239 / 100000, 919 / 1000000000000000000, 95725734099873293608258302967 / 200000000000000000000000000000⟩,
  ⟨-906179845938663992797626878299 / 1000000000000000000000000000000, 19 / 5000, 337 / 1000000000000000000, 118463442528094543757132020359 / 500000000000000000000000000000⟩]

theorem g5_ok : certsOk 5 0 deltaQ 0 g5 = true := by decide +kernel
theorem g5_line : lineOk 9 epsQ g5 = true := by decide +kernel

def g6 : List Cert := [
  ⟨466234757101576013906150777247 / 500000000000000000000000000000, 281 / 100000, 49 / 200000000000000000, 171324492379170345040296142173 / 1000000000000000000000000000000⟩,
  ⟨33060469323313225683069979751 / 50000000000000000000000000000, 211 / 100000, 89 / 125000000000000000, 180380786524069303784916756919 / 500000000000000000000000000000⟩,
  ⟨238619186083196908630501721681 / 1000000000000000000000000000000, 12 / 15625, 21 / 20000000000000000, 46791393457269104738987034399 / 100000000000000000000000000000⟩,
  ⟨-238619186083196908630501721681 / 1000000000000000000000000000000, 12 / 15625, 21 / 20000000000000000, 46791393457269104738987034399 / 100000000000000000000000000000⟩,
  ⟨-33060469323313225683069979751 / 50000000000000000000000000000, 211 / 100000, 89 / 125000000000000000, 180380786524069303784916756919 / 500000000000000000000000000000⟩,
  ⟨-466234757101576013906150777247 / 500000000000000000000000000000, 281 / 100000, 49 / 200000000000000000, 171324492379170345040296142173 / 1000000000000000000000000000000⟩]

theorem g6_ok : certsOk 6 0 deltaQ 0 g6 = true := by decide +kernel
theorem g6_line : lineOk 11 epsQ g6 = true := by decide +kernel

def g7 : List Cert := [
  ⟨59319244521422407782886855253 / 62500000000000000000000000000, 43 / 20000, 93 / 500000000000000000, 3237124154221742331765285817 / 25000000000000000000000000000⟩,
  ⟨741531185599394439863864773281 / 1000000000000000000000000000000, 89 / 50000, 561 / 1000000000000000000, 8740793484039895871920867857 / 31250000000000000000000000000⟩,
  ⟨405845151377397166906606412077 / 1000000000000000000000000000000, 491 / 500000, 111 / 125000000000000000, 381830050505118944950369775489 / 1000000000000000000000000000000⟩,
  ⟨0, 101 / 100000000, 51 / 50000000000000000, 26122448979591836734693877551 / 62500000000000000000000000000⟩,
  ⟨-405845151377397166906606412077 / 1000000000000000000000000000000, 491 / 500000, 111 / 125000000000000000, 381830050505118944950369775489 / 1000000000000000000000000000000⟩,
  ⟨-741531185599394439863864773281 / 1000000000000000000000000000000, 89 / 50000, 561 / 1000000000000000000, 8740793484039895871920867857 / 31250000000000000000000000000⟩,
  ⟨-59319244521422407782886855253 / 62500000000000000000000000000, 43 / 20000, 93 / 500000000000000000, 3237124154221742331765285817 / 25000000000000000000000000000⟩]

theorem g7_ok : certsOk 7 0 deltaQ 0 g7 = true := by decide +kernel
theorem g7_line : lineOk 13 epsQ g7 = true := by decide +kernel

def g8 : List Cert := [
  ⟨960289856497536231683560868569 / 1000000000000000000000000000000, 17 / 10000, 73 / 500000000000000000, 50614268145188129576265677153 / 500000000000000000000000000000⟩,
  ⟨199166619353406684897888484119 / 250000000000000000000000000000, 149 / 100000, 451 / 1000000000000000000, 222381034453374470544355994427 / 1000000000000000000000000000000⟩,
  ⟨525532409916328985817739049189 / 1000000000000000000000000000000, 991 / 1000000, 3 / 4000000000000000, 156853322938943643668981100993 / 500000000000000000000000000000⟩,
  ⟨4585866062391245123486903559 / 25000000000000000000000000000, 87 / 250000, 93 / 100000000000000000, 362683783378361982965150449277 / 1000000000000000000000000000000⟩,
  ⟨-4585866062391245123486903559 / 25000000000000000000000000000, 87 / 250000, 93 / 100000000000000000, 362683783378361982965150449277 / 1000000000000000000000000000000⟩,
  ⟨-525532409916328985817739049189 / 1000000000000000000000000000000, 991 / 1000000, 3 / 4000000000000000, 156853322938943643668981100993 / 500000000000000000000000000000⟩,
  ⟨-199166619353406684897888484119 / 250000000000000000000000000000, 149 / 100000, 451 / 1000000000000000000, 222381034453374470544355994427 / 1000000000000000000000000000000⟩,
  ⟨-960289856497536231683560868569 / 1000000000000000000000000000000, 17 / 10000, 73 / 500000000000000000, 50614268145188129576265677153 / 500000000000000000000000000000⟩]

theorem g8_ok : certsOk 8 0 deltaQ 0 g8 = true := by decide +kernel
theorem g8_line : lineOk 15 epsQ g8 = true := by decide +kernel

def g9 : List Cert := [
  ⟨121020029938453261229447025363 / 125000000000000000000000000000, 137 / 100000, 59 / 500000000000000000, 40637194180787205985946079057 / 500000000000000000000000000000⟩,
  ⟨83603110732663579429942978807 / 100000000000000000000000000000, 1 / 800, 369 / 1000000000000000000, 45162040173714351014618007811 / 250000000000000000000000000000⟩,
  ⟨613371432700590397308702039341 / 1000000000000000000000000000000, 927 / 1000000, 127 / 200000000000000000, 130305348201467731159371434709 / 500000000000000000000000000000⟩,
  ⟨324253423403808929038538014643 / 1000000000000000000000000000000, 123 / 250000, 831 / 1000000000000000000, 39043384630000355008578800823 / 125000000000000000000000000000⟩,
  ⟨0, 101 / 100000000, 903 / 1000000000000000000, 330239355001259763164525069287 / 1000000000000000000000000000000⟩,
  ⟨-324253423403808929038538014643 / 1000000000000000000000000000000, 123 / 250000, 831 / 1000000000000000000, 39043384630000355008578800823 / 125000000000000000000000000000⟩,
  ⟨-613371432700590397308702039341 / 1000000000000000000000000000000, 927 / 1000000, 127 / 200000000000000000, 130305348201467731159371434709 / 500000000000000000000000000000⟩,
  ⟨-83603110732663579429942978807 / 100000000000000000000000000000, 1 / 800, 369 / 1000000000000000000, 45162040173714351014618007811 / 250000000000000000000000000000⟩,
  ⟨-121020029938453261229447025363 / 125000000000000000000000000000, 137 / 100000, 59 / 500000000000000000, 40637194180787205985946079057 / 500000000000000000000000000000⟩]

theorem g9_ok : certsOk 9 0 deltaQ 0 g9 = true := by decide +kernel
theorem g9_line : lineOk 17 epsQ g9 = true := by decide +kernel

def g10 : List Cert := [
  ⟨243476632129292930019491003021 / 250000000000000000000000000000, 113 / 100000, 481 / 5000000000000000000, 2083479509646504299799025309 / 31250000000000000000000000000⟩,
  ⟨865063366688984510732096688423 / 1000000000000000000000000000000, 53 / 50000, 307 / 1000000000000000000, 29890269830116118629155267931 / 200000000000000000000000000000⟩,
  ⟨135881913659804881246865473023 / 200000000000000000000000000000, 841 / 1000000, 541 / 1000000000000000000, 54771590628995510998883733557 / 250000000000000000000000000000⟩,
  ⟨216697697064623595399632971583 / 500000000000000000000000000000, 539 / 1000000, 147 / 200000000000000000, 26926671930999635509122692157 / 100000000000000000000000000000⟩,
  ⟨14887433898163121088482600113 / 100000000000000000000000000000, 93 / 500000, 169 / 200000000000000000, 295524224714752870173892994651 / 1000000000000000000000000000000⟩,
  ⟨-14887433898163121088482600113 / 100000000000000000000000000000, 93 / 500000, 169 / 200000000000000000, 295524224714752870173892994651 / 1000000000000000000000000000000⟩,
  ⟨-216697697064623595399632971583 / 500000000000000000000000000000, 539 / 1000000, 147 / 200000000000000000, 26926671930999635509122692157 / 100000000000000000000000000000⟩,
  ⟨-135881913659804881246865473023 / 200000000000000000000000000000, 841 / 1000000, 541 / 1000000000000000000, 54771590628995510998883733557 / 250000000000000000000000000000⟩,
  ⟨-865063366688984510732096688423 / 1000000000000000000000000000000, 53 / 50000, 307 / 1000000000000000000, 29890269830116118629155267931 / 200000000000000000000000000000⟩,
  ⟨-243476632129292930019491003021 / 250000000000000000000000000000, 113 / 100000, 481 / 5000000000000000000, 2083479509646504299799025309 / 31250000000000000000000000000⟩]

theorem g10_ok : certsOk 10 0 deltaQ 0 g10 = true := by decide +kernel
theorem g10_line : lineOk 19 epsQ g10 = true := by decide +kernel

def g11 : List Cert := [
  ⟨978228658146056992803938001123 / 1000000000000000000000000000000, 471 / 500000, 201 / 2500000000000000000, 13917141779043416620688430111 / 250000000000000000000000000000⟩,
  ⟨110882824971011912384394721163 / 125000000000000000000000000000, 453 / 500000, 259 / 1000000000000000000, 15697546183113078079336787403 / 125000000000000000000000000000⟩,
  ⟨730152005574049324093416252031 / 1000000000000000000000000000000, 377 / 500000, 93 / 200000000000000000, 186290210927734251426097641431 / 1000000000000000000000000000000⟩,
  ⟨519096129206811815925725669459 / 1000000000000000000000000000000, 269 / 500000, 649 / 1000000000000000000, 58298441147997619979630926211 / 250000000000000000000000000000⟩,
  ⟨269543155952344972331531985401 / 1000000000000000000000000000000, 7 / 25000, 97 / 125000000000000000, 262804544510246662180688869891 / 1000000000000000000000000000000⟩,
  ⟨0, 101 / 100000000, 821 / 1000000000000000000, 17057817923618789419655220521 / 62500000000000000000000000000⟩,
  ⟨-269543155952344972331531985401 / 1000000000000000000000000000000, 7 / 25000, 97 / 125000000000000000, 262804544510246662180688869891 / 1000000000000000000000000000000⟩,
  ⟨-519096129206811815925725669459 / 1000000000000000000000000000000, 269 / 500000, 649 / 1000000000000000000, 58298441147997619979630926211 / 250000000000000000000000000000⟩,
  ⟨-730152005574049324093416252031 / 1000000000000000000000000000000, 377 / 500000, 93 / 200000000000000000, 186290210927734251426097641431 / 1000000000000000000000000000000⟩,
  ⟨-110882824971011912384394721163 / 125000000000000000000000000000, 453 / 500000, 259 / 1000000000000000000, 15697546183113078079336787403 / 125000000000000000000000000000⟩,
  ⟨-978228658146056992803938001123 / 1000000000000000000000000000000, 471 / 500000, 201 / 2500000000000000000, 13917141779043416620688430111 / 250000000000000000000000000000⟩]

theorem g11_ok : certsOk 11 0 deltaQ 0 g11 = true := by decide +kernel
theorem g11_line : lineOk 21 epsQ g11 = true := by decide +kernel

def g2j1 : List Cert := [
  ⟨289897948556635619639456814941 / 1000000000000000000000000000000, 171 / 5000, 39 / 40000000000000000, 7278344730240913224225239917 / 10000000000000000000000000000⟩,
  ⟨-689897948556635619639456814941 / 1000000000000000000000000000000, 19 / 1000, 59 / 62500000000000000, 12721655269759086775774760083 / 10000000000000000000000000000⟩]

theorem g2j1_ok : certsOk 2 1 deltaQ 0 g2j1 = true := by decide +kernel

end Tandem.NewtonCert
