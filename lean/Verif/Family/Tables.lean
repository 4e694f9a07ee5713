import Verif.Family.Model
import Verif.ListPoly

/-!
# Coefficient tables for the family polynomials

`w` parametrises the seeds with integral polynomials: `z = 3w+1` for the BLS families, `z = w` otherwise.
The tables are checked against the model in `Lemmas.lean`.
-/

namespace Ecgen.Family

/-- the argument of the family polynomials as a polynomial in `w` -/
def linW : Fam → List Int
  | .BN =>
    [0, 1]
  | .BLS12 =>
    [1, 3]
  | .BLS24 =>
    [1, 3]
  | .KSS16 =>
    [25, 70]
  | .KSS18 =>
    [14, 42]
  | .KSS36 =>
    [287, 777]
  | .KSS40 =>
    [1205, 2370]

/-- numerators of the model's polynomials -/
def numP : Fam → List Int
  | .BN =>
    [1, 6, 24, 36, 36]
  | .BLS12 =>
    [1, 1, 0, 2, 0, -2, 1]
  | .BLS24 =>
    [1, 1, 1, 0, -1, 2, -1, 0, 1, -2, 1]
  | .KSS16 =>
    [3125, 2398, 625, 0, 240, 152, 48, 0, 5, 2, 1]
  | .KSS18 =>
    [2401, 1763, 343, 259, 188, 37, 7, 5, 1]
  | .KSS36 =>
    [823543, -386569, 117649, 0, 0, 0, 4781, -2510, 683, 0, 0, 0, 7, -4, 1]
  | .KSS40 =>
    [48828125, -13398638, 9765625, 0, 0, 0, 0, 0, 0, 0, 31160, -10568, 6232, 0, 0, 0, 0, 0, 0, 0, 5,
     -2, 1]

def numR : Fam → List Int
  | .BN =>
    [1, 6, 18, 36, 36]
  | .BLS12 =>
    [1, 0, -1, 0, 1]
  | .BLS24 =>
    [1, 0, 0, 0, -1, 0, 0, 0, 1]
  | .KSS16 =>
    [625, 0, 0, 0, 48, 0, 0, 0, 1]
  | .KSS18 =>
    [343, 0, 0, 37, 0, 0, 1]
  | .KSS36 =>
    [117649, 0, 0, 0, 0, 0, 683, 0, 0, 0, 0, 0, 1]
  | .KSS40 =>
    [390625, 0, 125000, 0, 24375, 0, 2800, 0, -79, 0, 112, 0, 39, 0, 8, 0, 1]

def numT : Fam → List Int
  | .BN =>
    [1, 0, 6]
  | .BLS12 =>
    [1, 1]
  | .BLS24 =>
    [1, 1]
  | .KSS16 =>
    [35, 41, 0, 0, 0, 2]
  | .KSS18 =>
    [7, 16, 0, 0, 1]
  | .KSS36 =>
    [259, 757, 0, 0, 0, 0, 0, 2]
  | .KSS40 =>
    [1185, 6469, 0, 0, 0, 0, 0, 0, 0, 0, 0, 2]

def denP : Fam → Int
  | .BN => 1
  | .BLS12 => 3
  | .BLS24 => 3
  | .KSS16 => 980
  | .KSS18 => 21
  | .KSS36 => 28749
  | .KSS40 => 1123380

def denR : Fam → Int
  | .BN => 1
  | .BLS12 => 1
  | .BLS24 => 1
  | .KSS16 => 61250
  | .KSS18 => 343
  | .KSS36 => 161061481
  | .KSS40 => 2437890625

def denT : Fam → Int
  | .BN => 1
  | .BLS12 => 1
  | .BLS24 => 1
  | .KSS16 => 35
  | .KSS18 => 7
  | .KSS36 => 259
  | .KSS40 => 1185

/-- `p`, `r`, the trace and the square root of `(4p - t²)/|D|` as polynomials in `w` -/
def PW : Fam → List Int
  | .BN =>
    [1, 6, 24, 36, 36]
  | .BLS12 =>
    [1, 3, 3, 18, 135, 324, 243]
  | .BLS24 =>
    [1, 3, 3, 36, 594, 4212, 16767, 40824, 61236, 52488, 19683]
  | .KSS16 =>
    [105890880565, 2938629980082, 36701968956250, 271665747150000, 1319757590130000,
     4396843858680000, 10173492949900000, 16143123500000000, 16812042100000000, 10376641800000000,
     2882400500000000]
  | .KSS18 =>
    [99213811, 2277529014, 22896702948, 131624074008, 473078255328, 1088278335648, 1564374047040,
     1284433428096, 461078666496]
  | .KSS36 =>
    [882400566168216899094908646319, 33478484910305399276089664018667,
     589727137702446598947277377789723, 6392681171081883740401137573296634,
     47641744730795683134763460956040001, 258219806186807639357745715643956662,
     1049669758716558687270097808409162810, 3250996374743044776321829609903383762,
     7708970228997151200141186214212590391, 13927620243158377713723186862383327462,
     18872033754210740009727512553522737307, 18597637175101124000598894430832045544,
     12599970117436283198552125612033660398, 5253247586901993442523383147722530262,
     1016884248884616069965288666113703541]
  | .KSS40 =>
    [53761134234982209850934860742220143812325193025470924208702517,
     2326403723026949824566782646781665062055257477801525920898450438,
     48047231434566105518683311518457532278735379006185492942285156250,
     630044315484490299706971050598602188252929063820691664783984375000,
     5886521029419843542724460247299233044032177679426970465889453125000,
     41682638064293717628926749945802913080014622673482573418615937500000,
     232298747975304253820668855832679354727463084505894917045626406250000,
     1044390268535421035085302526546281780507380581106057386940200000000000,
     3851750053945186310492218295572739134162197689887472038843425000000000,
     11785218432813112259097437797019903308377426208792618049132550000000000,
     30135264347813734839574599737188554855050099595657779315063385000000000,
     64663258717715597760458323346598363385180973759938513261301520000000000,
     116590469489219122511885080156315658305396704649193621415023400000000000,
     176406152405995514284755396946390996250880652320356507812500000000000000,
     223060275519656181020488986118583103437331129404526035156250000000000000,
     233999537541218347041831979949625906578866388020861462500000000000000000,
     201366442408319176329913439965689097257902642313348543750000000000000000,
     139792371089853309483188456321581273885345006149371625000000000000000000,
     76379184898135655311634669173356093975190455581633156250000000000000000,
     31628271826159044478572117657553649978456671907906250000000000000000000,
     9331700218503753960151552022528673646823007975274650000000000000000000,
     1748097052133251739108520068321715843685781110054200000000000000000000,
     156292063284887830907167366905178306531435839400500000000000000000000]

def RW : Fam → List Int
  | .BN =>
    [1, 6, 18, 36, 36]
  | .BLS12 =>
    [1, 6, 45, 108, 81]
  | .BLS24 =>
    [1, 12, 198, 1404, 5589, 13608, 20412, 17496, 6561]
  | .KSS16 =>
    [2491537, 55807000, 546889400, 3062526880, 10718768816, 24010000000, 33614000000, 26891200000,
     9411920000]
  | .KSS18 =>
    [22249, 397800, 2971512, 11862072, 26671680, 32006016, 16003008]
  | .KSS36 =>
    [1939059218664007120117, 62995777542899491843314, 938022492437251725490911,
     8465081029310373085087560, 51564731391953880037089300, 223363324273433041970555814,
     705501231546569497032884031, 1637156167979145169131540072, 2770188028135443807524404695,
     3333234375317444581411478820, 2707236699952948891731762066, 1332608752526728722759315252,
     300649535631030260622528441]
  | .KSS40 =>
    [8105520827695032282051492036698608758721, 255071483907232133760283056215088852498768,
     3762566566098505277781763059657506635777200, 34534407786715760999934997836431512961122368,
     220747825246850369736950962980503822134003104, 1042002486196283167394046275637875179364355072,
     3757260351714551459929230373123168189306659840,
     10556850449313378536515198519451848403116511232,
     23358665702844119903914896808627367143035181056,
     40837266886910322208392779627943238770415872000,
     56223242408353796204258390963491975695460300800,
     60316433309039025018982929010886599127147520000,
     49429433156793555857280975442185176111869440000,
     29913243650386766950480290950165392084992000000,
     12607180961734118301264109479398342049792000000,
     3306115353524510481422828242886142566400000000, 406405258706073124531748077574696985600000000]

def TW : Fam → List Int
  | .BN =>
    [1, 0, 6]
  | .BLS12 =>
    [2, 3]
  | .BLS24 =>
    [2, 3]
  | .KSS16 =>
    [558066, 7812582, 43750000, 122500000, 171500000, 96040000]
  | .KSS18 =>
    [5521, 65952, 296352, 592704, 444528]
  | .KSS36 =>
    [1238521382045476, 23471490581677449, 190634301553605714, 860179165546757490,
     2328777740870489790, 3782843842487185854, 3413785906634777478, 1320314409883136934]
  | .KSS40 =>
    [13127111114229317352792939171268, 284003142529425977914781679700438,
     2792893974252031401070674609375000, 16479233325254724698433607031250000,
     64822876316769622465207715625000000, 178491538273063574555650788750000000,
     351058046230008856179993667500000000, 493187652380036152428325425000000000,
     485001965203604017118311725000000000, 317968093369997654376320550000000000,
     125076245856745965289938540000000000, 22363689376121308014873960000000000]

def SW : Fam → List Int
  | .BN =>
    [1, 4, 6]
  | .BLS12 =>
    [0, 1, 12, 18]
  | .BLS24 =>
    [0, 1, 24, 108, 216, 162]
  | .KSS16 =>
    [167426, 2265663, 12250000, 33075000, 44590000, 24010000]
  | .KSS18 =>
    [11051, 126412, 543312, 1037232, 740880]
  | .KSS36 =>
    [815611641834730, 15484095993487319, 125982482675960106, 569456590431651300,
     1544404285757316690, 2513108801280685608, 2271892362952064454, 880209606588757956]
  | .KSS40 =>
    [3268160443376593531815669502919, 70732959205980196875984384768267,
     695853062992631739120022851562500, 4107375865583575761784234570312500,
     16162927667063266861373934375000000, 44521889733332059100310857812500000,
     87598980603979954116584613750000000, 123110874750090125940944681250000000,
     121113278372231557650819450000000000, 79432051993316086990086112500000000,
     31257266269367861940620250000000000, 5590922344030327003718490000000000]

end Ecgen.Family
