import Verif.Crypto.Fast

/-!
# The seed of the first test vector of BIP-39 (bip39/bip39_test.go): states of the loop

Written by tools/gen_seed.py. The states of the loop of `pbkdf2.Key` after every 128 rounds; the kernel runs the rounds in between
(Part0 to Part3).
-/

namespace Bips.Seed.Plain

open Fast

def i : Words8 := ⟨14403035353725789725, 6755626892500025226, 5020808023737830030, 11042602477037836521, 17634000325241878995, 1159986118866272170, 9650759692877145910, 763481238414808510⟩
def o : Words8 := ⟨18283137981034777304, 16203441953169177392, 397008473029659825, 16669063739359772147, 10161908764572012100, 3409527833683077911, 17180757051110366343, 18088452986902486923⟩

def u0 : Words8 := ⟨10644675281200006913, 16926008061512244832, 7351433420412163856, 6999444364795320148, 20860837370109742, 4198740526317185831, 7703836576312967211, 14967259242769128006⟩

def u1 : Words8 := ⟨1823257891908191647, 8716843435808001748, 13418354109343671083, 3602336278614458649, 10913486425229012122, 18200293737380244443, 2846311474952874331, 7119685045322386493⟩
def t1 : Words8 := ⟨1016704573399342726, 15623776706881410123, 12100240394181582719, 817183146778871386, 11264679651851026972, 16803050071359517798, 4930420338415765450, 14660533733830448098⟩

def u2 : Words8 := ⟨3217633625532830000, 5052988481551741802, 454007907320785751, 798365530444825093, 11909348150882149434, 16334937052031218589, 13284787359349182918, 5149789494726197512⟩
def t2 : Words8 := ⟨6014945781641151694, 12874787257643020849, 14611239228852751763, 16080378013499199928, 5944211974041761876, 12440817009552295696, 5419034965965424957, 5558135431222120457⟩

def u3 : Words8 := ⟨13074646480359040896, 5021303242143445899, 12001286889905262154, 5813895016830012711, 10574166209800005870, 16364745373653237154, 8311180340625073987, 4636324811154116245⟩
def t3 : Words8 := ⟨9148658833484104412, 6918361330916993643, 5705856090253900735, 17128322823098536714, 3809125333409509587, 9965690712419684058, 4778599774876204671, 17858838143741969978⟩

def u4 : Words8 := ⟨12424702147357936860, 16018472215616021942, 17422390267423458713, 18240694617637325276, 17333839148679064723, 8500849140495129553, 11625943084187297565, 11889362748711331915⟩
def t4 : Words8 := ⟨9861276008833960892, 15718862247850624195, 10655491444567539021, 10638686431663851184, 17385343643805312440, 11955126529157874039, 3454174113010649958, 1604419514066776111⟩

def u5 : Words8 := ⟨7718707880050428036, 8571494540484945413, 7720072674936536294, 3935931198153000530, 9774582624029506241, 9160358396738352215, 15682412075577812993, 12104432398177188429⟩
def t5 : Words8 := ⟨3831557402314626183, 2583632154906516555, 13895645545187009053, 17256318838545501781, 823227747661110084, 3870493212365757186, 18283036877460776226, 10033736917269527881⟩

def u6 : Words8 := ⟨16299930595398519624, 11824716189002529320, 13430191020196822106, 3193139005056029834, 4091376467855655493, 856590794640506720, 371757374067098489, 15336578111632207146⟩
def t6 : Words8 := ⟨12265565213387105385, 17571718583344071362, 2580825749093675384, 4040224703274724067, 14610812461680079397, 14655733898336149419, 15320872744882904220, 4031214267014643985⟩

def u7 : Words8 := ⟨10828170762136162613, 828755334033003543, 17972853711482947464, 6867281803938995486, 16975558343748615866, 16015958888263994980, 860713121812361025, 6086465676632519675⟩
def t7 : Words8 := ⟨14197624353485379454, 15765645158799920666, 6274554422187311373, 13550814868174782290, 3862111120737251774, 7457736868361802820, 16775241872977051581, 398658577528064410⟩

def u8 : Words8 := ⟨11984702222841929258, 8083100287524879820, 6603663442867749542, 2354169789123242238, 5868105641973460794, 12091095913254558649, 4329321417343886721, 7709652157913675284⟩
def t8 : Words8 := ⟨17642706820382239170, 4782861702086384318, 8648462621295909198, 2190687707756237963, 467690946045504840, 14066099669937826760, 17347070769046788744, 2467312776903288090⟩

def u9 : Words8 := ⟨11865427681002407842, 946289904736924313, 17775761900468198546, 4902509952902336909, 16523636544303190698, 615171821117060901, 4930408032880584454, 9877514598184644959⟩
def t9 : Words8 := ⟨944381338992726957, 4345289472477783558, 7100690072200372550, 9137845969120170165, 16216617161521661630, 8584416170718818866, 17727570927414986051, 1369114234581633924⟩

def u10 : Words8 := ⟨9072495242649914858, 9055967973799482959, 3271524897804631265, 11918965669247858299, 5288140720070911034, 15411694274663099956, 3915871306016380257, 12746900666210586215⟩
def t10 : Words8 := ⟨17365326009856890777, 9529104344389380128, 1719010750567380769, 2865425867854066205, 8546587680311438517, 15124916682828290327, 12518203380211024348, 13233763738221486919⟩

def u11 : Words8 := ⟨5507794538197286817, 17398725169672235281, 6116824679086664669, 12202375435380890900, 8434953790036921530, 8291653135890276789, 12310424780950330008, 2598553381895202003⟩
def t11 : Words8 := ⟨17894072730161577788, 3484184002449538195, 254514068411146566, 6490681749738637147, 17682823337100451806, 4430857622268382416, 13687062649317558254, 16861979303957920905⟩

def u12 : Words8 := ⟨13508649012416588538, 11090732866828895861, 7250123532472395080, 7211117332087102817, 2005565814260688363, 14912374674034508652, 1836806669962526863, 9349898971590955386⟩
def t12 : Words8 := ⟨2062210071361731825, 1780398396167750648, 683587665827725150, 7104805248003987012, 12621430905852578322, 11431998165187280892, 12298645241511274642, 10270188747362576037⟩

def u13 : Words8 := ⟨11357955826365064918, 14855172116367317233, 16332623557727060192, 1490218805168503264, 15186434012483487757, 4219961362432983383, 1879562251252321506, 884671992101153950⟩
def t13 : Words8 := ⟨4627656123950130290, 6872385784387119833, 12792444461434298838, 3628821899442053543, 1670254739002897759, 6056455336123994610, 724702385045695548, 12474138454744878405⟩

def u14 : Words8 := ⟨11546155890793503607, 13675453572568159748, 10329176275004625653, 4364561482550054293, 8814602617720546529, 9588510324694402159, 17505354090984160653, 1980209456886600564⟩
def t14 : Words8 := ⟨17502175486753752240, 2507482821446225626, 11334320542613936721, 12461040973590988947, 7983983449654097990, 6911019276491486323, 14957669627813238905, 10976878196826280960⟩

def u15 : Words8 := ⟨11112354515168088407, 3917804632866372340, 13027626943447976492, 9053195824226950407, 17448040714421634012, 9378286138671805201, 4706748676172300855, 9226655011945800912⟩
def t15 : Words8 := ⟨4059618847554230886, 1065868122327603675, 680172893072920606, 4591633868808864910, 406686429631200086, 14210606471579229083, 14011502332593515112, 5448771011249338697⟩

def u16 : Words8 := ⟨2696663681114426045, 38019874288524111, 11121872556167672556, 2347615084849901355, 5581718353202980130, 803914360128807283, 602027223198951258, 9523640977644699156⟩
def t16 : Words8 := ⟨14218523470215543922, 187721551691122157, 243948247816420926, 11455529113514972499, 2236501863704416642, 7260332328494100801, 7137213908845578267, 3386731765753592580⟩

end Bips.Seed.Plain
