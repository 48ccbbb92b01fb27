import Verif.Crypto.Fast

/-!
# The seed of the first Japanese test vector of BIP-39 as the code computes it: states of the loop

Written by tools/gen_seed.py. The states of the loop of `pbkdf2.Key` after every 128 rounds; the kernel runs the rounds in between
(Part0 to Part3).
-/

namespace Bips.Seed.Japanese

open Fast

def i : Words8 := ⟨17702572731637709489, 17055442100772497979, 18385816706705486565, 13600689114621625742, 16642348576589253825, 6398381160228683215, 698163860625500900, 2504212195935281831⟩
def o : Words8 := ⟨12103451870173727974, 14196158474664262790, 11455241311825974946, 9724146642921135803, 6418105331872024769, 9993615187900661124, 2910336006089283671, 3760484168056841994⟩

def u0 : Words8 := ⟨2990781647335181503, 4832059493216982998, 3063817380088921836, 7079710436979031249, 10383305274011480499, 11732353425406634808, 13594678453757059525, 15751810081689845066⟩

def u1 : Words8 := ⟨5345672455821693167, 2983763933107850307, 17849068692672434402, 128445223027967393, 18152753149093396376, 962214259592412420, 2841262299433158976, 4628635395019856709⟩
def t1 : Words8 := ⟨11000508306085914866, 6910616940324910694, 12648337554241609893, 12182509350370995440, 17662922312974484422, 4150827661704454129, 12137506457750579791, 1595359765385107814⟩

def u2 : Words8 := ⟨10273118734619966401, 16650583630777213291, 242885011232472003, 16828724956070375058, 12651140122066205930, 17489497628858441568, 12873418285007241051, 3748175522515250825⟩
def t2 : Words8 := ⟨13535433000671560866, 7761453694026477286, 6118967822229522215, 12802014493897355789, 3397885710396061162, 17911502574398803181, 8576007540414287620, 7622957984462520064⟩

def u3 : Words8 := ⟨1002352599555302426, 10909773975437505972, 6512475584625823331, 9165692550967017710, 2754529828208445412, 15118683147525940900, 6510438260851458212, 7471752660639415649⟩
def t3 : Words8 := ⟨10447629393495085677, 3739047940258681846, 2073039813249962574, 14219184255299483625, 10578106979964430952, 17401607651090847846, 824873071397525871, 13354173731279022617⟩

def u4 : Words8 := ⟨3091768866146040434, 10621530126169644333, 16202382326545262868, 4878156240629455323, 17335706196222445955, 12799212238568465585, 14544885204092224654, 1574893079260729485⟩
def t4 : Words8 := ⟨10688864169873930020, 4233466772240260661, 9519812989781846460, 12074174539067884515, 3061011729541204069, 15581253566396225174, 12105157246291002888, 3341556555822158805⟩

def u5 : Words8 := ⟨4723006614950306912, 16074547454407310725, 7228552208805838571, 13757136530956910039, 11071118092031880062, 1355153615120687601, 13381563119078790668, 11572756332497882031⟩
def t5 : Words8 := ⟨17372698699532817952, 18229912500072486696, 10382191816264550073, 6710745948245080194, 16401363450204447734, 16185229507874606638, 11730080897045302807, 9080687442686018170⟩

def u6 : Words8 := ⟨12952372423677519110, 15756748936112102489, 15204975521684447198, 17240354858675961928, 2772392519134680953, 5092956471017389246, 17447681731376731021, 7286323933628885016⟩
def t6 : Words8 := ⟨6108354799498218659, 5862986544246965085, 5989480107394113983, 12635269484329521563, 8174278355019604778, 9319081335329815333, 16250762848484664304, 103981169333562107⟩

def u7 : Words8 := ⟨16483392888755992844, 12345159755393098185, 5707843833473361645, 4718735149924123992, 16794943942629246616, 17586763870914730445, 3691670781254580452, 752327005857465973⟩
def t7 : Words8 := ⟨8125792964165103127, 487496048702222043, 4018018100998147696, 6913263425694845289, 6415728171251454915, 1439513166580426365, 4882119111530166828, 13246893586343736884⟩

def u8 : Words8 := ⟨11256135722109947918, 8405249080152125700, 9914103951181417418, 18395994748309655341, 15729369353683215548, 6690632523719610819, 1439596981788893595, 14908114477762862349⟩
def t8 : Words8 := ⟨15578677103384417358, 11175592572684351694, 18125577737769073093, 9205424683233283306, 4102713133554982425, 17409581168811446778, 7194603237230918510, 17540473488487679208⟩

def u9 : Words8 := ⟨13876228088668246517, 1581775065864395713, 18320869070752317072, 12662588651004439824, 2188202372392197987, 14987578985513858687, 1906034454232203382, 10381792924591627403⟩
def t9 : Words8 := ⟨894942161806968094, 9889491158550423228, 9653298607184312769, 7080855693497503480, 5861038846923090385, 6728044170527967577, 10934738002804421005, 15720569220988382258⟩

def u10 : Words8 := ⟨17607907108792155142, 1014437020159385974, 15390062336964153758, 15480251764269408074, 8477241820547672253, 2795695783019023672, 14084490468105643152, 16048843400581002995⟩
def t10 : Words8 := ⟨10789337866119132976, 1901071089654940553, 4490470357742031145, 15823489733503177217, 1360733718388545317, 12351911498857528991, 4338731180708331253, 3826589538596563180⟩

def u11 : Words8 := ⟨3952135102030738000, 16601306438120305925, 13676654319986533578, 13261116784778950425, 2211462510464652099, 9769858774643555160, 11295083738468755962, 8013554424831343491⟩
def t11 : Words8 := ⟨13966940615183779232, 1505891340308749807, 13561662325731298354, 14814346018732541640, 8499595362552793112, 14180988303525956584, 7149771497222177227, 8818418774961504353⟩

def u12 : Words8 := ⟨17197099595622346199, 7053338081857227134, 6672746508851672195, 4212737841910396777, 6186212706488760855, 6282153086723604415, 15865184137076770684, 13264829109286638650⟩
def t12 : Words8 := ⟨14731913647555748062, 1046525364777378408, 10402074010558488937, 10478840067956443353, 8735178481614135998, 3837963549224825114, 10689291005990793689, 6289627806702906826⟩

def u13 : Words8 := ⟨17980185863725097376, 5592275197946383656, 17708423949969338406, 9544044823235927644, 4519966851351396792, 5156498993463584794, 4167273079192390588, 2762656077535784941⟩
def t13 : Words8 := ⟨15050341946570525159, 12573504314940672753, 11205278139409372349, 17136214955816675532, 10274365547122702308, 8756417295016602621, 16029425505943130197, 3645366919238408620⟩

def u14 : Words8 := ⟨17813809908298287658, 14964674823597125797, 14334831988252964405, 15100021044995938131, 16788089043552714304, 10991426333377940702, 14415625439239715996, 5501136648755246797⟩
def t14 : Words8 := ⟨15954214773784268330, 748949867940508610, 14958192344262650508, 4693037937684215998, 10235591269554668690, 9659712831710809073, 16811934483648813116, 13992203285560057434⟩

def u15 : Words8 := ⟨14016641030594441143, 7053706352208067452, 16191646496344844816, 14129124378391171275, 10969210869866534941, 12340280905782593124, 3269628849566361101, 4827615037656541081⟩
def t15 : Words8 := ⟨6547335645193899975, 12642786746178734549, 7755696870959167000, 16156488897478259828, 3126469937305031538, 11270281468403052032, 17167180005146626282, 15776400653878146209⟩

def u16 : Words8 := ⟨17325344594385333982, 8206617939777688780, 8763482408636094411, 8235694446417596983, 14617909805921495124, 17388098012955432934, 6962503065062326176, 8016634258725241566⟩
def t16 : Words8 := ⟨4851523383013323453, 13722604165879159484, 2221376104118495606, 12447558029074584644, 9856391559177156569, 16789428714980334984, 17014293081780537021, 1981410962508510650⟩

end Bips.Seed.Japanese
