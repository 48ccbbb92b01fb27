import Verif.Crypto.Fast

/-!
# The seed of the same words followed by a space: states of the loop

Written by tools/gen_seed.py. The states of the loop of `pbkdf2.Key` after every 128 rounds; the kernel runs the rounds in between
(Part0 to Part3).
-/

namespace Bips.Seed.Space

open Fast

def i : Words8 := ⟨5473916078033320466, 16550802282510849055, 7594799592515355613, 15266428439907556833, 12566681568704902453, 2844832998063364377, 220221395047031499, 5070639596290252536⟩
def o : Words8 := ⟨952168546345093361, 11791922006893815401, 17758663450479686245, 3090448471881478875, 11714480284961169286, 17044377355272708061, 12528001800746875572, 1182943723023971474⟩

def u0 : Words8 := ⟨4694565599984785679, 13173762001342683427, 11380474246947767187, 11166997805134466511, 2735221647119598857, 14738165189429366226, 17600603829390405874, 5605069930571711524⟩

def u1 : Words8 := ⟨15376769474496186785, 11295752954161176904, 16490923582937861659, 15302655816728888380, 5649984211411296828, 7418849762019487194, 2217519794516393670, 5844894386177227827⟩
def t1 : Words8 := ⟨12574092450642881533, 6842370259565099048, 11201232705308075630, 12470780770439240590, 11897098695174738110, 3711941793966134237, 16996743059506017204, 2352580753921542687⟩

def u2 : Words8 := ⟨4441466361943409685, 12939170844161518974, 17667300193539522363, 12714708213081829194, 8473366621738727164, 15737151545728210012, 3161948598630790894, 10795313940792915098⟩
def t2 : Words8 := ⟨6461342291270832835, 6928746222468183651, 387054238528369324, 9462879323686868183, 7656792240996031542, 5343109374141140776, 17972082994604094749, 10813863319868518717⟩

def u3 : Words8 := ⟨2049371012653434230, 17059700731719532854, 18325707817451590709, 10266544988725025683, 10693300027746913403, 1783825713616512540, 1460808021989694184, 11389221751879671922⟩
def t3 : Words8 := ⟨8445277348333057769, 16557580911598618158, 17970545562318831309, 10621830255147284422, 9296249763343819617, 5854000684178533002, 5266971479005772385, 12591964817451975714⟩

def u4 : Words8 := ⟨14581399308132164102, 10786553419972595212, 16905278162769971576, 15979470889368505004, 12845136213012561967, 17225848680649152213, 10464891850523541467, 4115685129626141290⟩
def t4 : Words8 := ⟨4151073575675251939, 18415761818015642773, 9084455641146642173, 17664782526254861459, 17421541022783022795, 6816304099663250483, 6386010367023003316, 17056309839243717325⟩

def u5 : Words8 := ⟨3034100589624699682, 14218548925697515456, 17804323636759869010, 1630449979849080118, 2797575575250810216, 9941401086883814684, 16293605426034196406, 2434485682015608880⟩
def t5 : Words8 := ⟨14340875272967278319, 6540241427624366541, 4195655671347449553, 11926935656899872688, 3142394929668922733, 5247173904550362034, 11783739383310753629, 15536835807908380455⟩

def u6 : Words8 := ⟨7455315981023416537, 12102120589445469756, 1969052595361046747, 896546727418207025, 10703288756088885628, 16791069564769527208, 8435160352922065350, 2773601999245619078⟩
def t6 : Words8 := ⟨511888878854306449, 4395569199848390167, 841680028104272391, 4070800193288310229, 11441321908704419727, 3233988290150357063, 4750330092729024711, 14154197011562643834⟩

def u7 : Words8 := ⟨17110267180410447983, 6752484378569992268, 3410425466544663126, 15518989458494449083, 1404178916181135450, 15305873217625326587, 15605223588712342016, 6362748023395838363⟩
def t7 : Words8 := ⟨130830658219184592, 11530221540505832076, 17167501570240613157, 7358508382515551600, 10960286698006753225, 12254764679669320920, 7290765907114378238, 7976782317022454353⟩

def u8 : Words8 := ⟨17066803777294652518, 6071254969327775102, 13599884848634068375, 1696275415563305494, 2336262779789336027, 14283453543146044573, 241361739605124814, 14275734916680985882⟩
def t8 : Words8 := ⟨12337149890230868451, 12102101714652375722, 4470837802404834145, 8360838214742708608, 8077038053789890577, 8238435941949998730, 3936980356086790055, 2718208740915392108⟩

def u9 : Words8 := ⟨10760971376693177915, 10170524906149411037, 16895843180475185956, 6206102081450066107, 5354837095867843012, 696100693763700171, 3661901277340495979, 15382343204202639574⟩
def t9 : Words8 := ⟨138114379358803260, 3122393307962875462, 15871247710880213953, 16012202162495016860, 8443497631676338618, 8791258854794124193, 17552609843068037117, 9002833739605955026⟩

def u10 : Words8 := ⟨6367445857006146334, 5130847155664413478, 10591197835939354141, 12870132284635791632, 15912197730373709986, 15016487188282818390, 15806282146457053875, 3287869621386175554⟩
def t10 : Words8 := ⟨16602986878082408304, 6075860267467007087, 1641874394827660879, 1414332490770429056, 2296719958578022595, 3567628796414826703, 6013709760692038343, 15586331528245930677⟩

def u11 : Words8 := ⟨1047537811154235556, 8613395410981166415, 7542901248781232237, 11282427695446838240, 16931044019586671572, 9527812546387118817, 5789965363253386258, 5742985610958240967⟩
def t11 : Words8 := ⟨464690077953905031, 5134224312204788295, 9290564067857883311, 14211341909191022674, 1847419408143510460, 16160228916250755567, 2030389418151405447, 7773913578751217596⟩

def u12 : Words8 := ⟨9895911577767380367, 13802715891359040558, 12492851603090489148, 17874177745483877632, 10861432382757681929, 17334780438732237341, 7820170328173535401, 531601425125895268⟩
def t12 : Words8 := ⟨10217656926552866525, 162184960793146846, 3388309464096607730, 14752719189434098499, 1039115217135891125, 5107292537452594142, 788668983856995691, 5249517797267362120⟩

def u13 : Words8 := ⟨7953903873473457343, 1609413627300259545, 17453338315559121808, 657655000749810758, 10597864946261108944, 14715148288605259685, 5183034615213775550, 4127903261611840051⟩
def t13 : Words8 := ⟨15820224202569379827, 9583080760675615814, 18145312418897083585, 17121383906728158141, 10168839432774611425, 14797248960025168187, 14418831209857479679, 7188131317078738643⟩

def u14 : Words8 := ⟨4099945846609152221, 16598302650255711164, 11200057906436178468, 13979662428420757868, 5175319013583407729, 806054936867714970, 11956660782096323488, 2602398998876549633⟩
def t14 : Words8 := ⟨2550686548928997902, 6221562101693495275, 7968725770738642939, 4060258449974027536, 7688685595828024772, 6580688476605530331, 17946825342034130226, 17896693613858590307⟩

def u15 : Words8 := ⟨12167456369990827748, 16918229294075602795, 5378128758604749172, 7028118129647543021, 13895279170880385111, 179841067829987448, 15874316836203908218, 2314839428992978988⟩
def t15 : Words8 := ⟨2770897253371262771, 9049658488288889685, 16564147847418358485, 16961941665467994214, 8319234696976809946, 14890390262752825498, 10178636819829925127, 4126003451319061073⟩

def u16 : Words8 := ⟨15308821954404106005, 11214134953811495257, 16276692967532907949, 8928608948856422365, 15892133737441378761, 12902624420196988430, 1246434452269875051, 7945913397724745862⟩
def t16 : Words8 := ⟨401741178697432549, 10598328820193442340, 7654278745801234045, 361367612233786217, 368810368012589080, 14410426306433655293, 5712652201514337831, 3272359776052140025⟩

end Bips.Seed.Space
