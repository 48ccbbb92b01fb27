import Verif.Crypto.Fast

/-!
# The seed of the first Japanese test vector of BIP-39 after normalization: states of the loop

Written by tools/gen_seed.py. The states of the loop of `pbkdf2.Key` after every 128 rounds; the kernel runs the rounds in between
(Part0 to Part3).
-/

namespace Bips.Seed.JapaneseNfkd

open Fast

def i : Words8 := ⟨7850181017189136743, 17738344648763479375, 2152018830272897577, 9288046777562353649, 15537887191261521053, 10854952980166757727, 13803006845535266860, 3315469675447661819⟩
def o : Words8 := ⟨8189893852953450765, 1335335507300283593, 8718621866186306214, 4098309022196883594, 6005329793388790570, 15209654801993562859, 9804861714415132380, 11680357280723654614⟩

def u0 : Words8 := ⟨14223657322901328515, 13917562981088629460, 16662828412501332403, 8883138567518737164, 7806263211945909854, 9572507281620514882, 9429176706862988698, 3446099851884157801⟩

def u1 : Words8 := ⟨570464077807567632, 12070682693489424930, 12814106464571170358, 3220050853182046378, 7607730779017156099, 12505015787042740720, 15400703266501796237, 6397022527944597725⟩
def t1 : Words8 := ⟨4398026088294224229, 7366613829071780483, 12346218407664500041, 17691130485147901378, 14502813424980035070, 501623598993045079, 757291807833245953, 12505563546352153005⟩

def u2 : Words8 := ⟨16564806684103168661, 5913024596907719875, 7716395968810416920, 9573215475646508442, 5367697573852984644, 5776200132899925022, 16384283868935357987, 2906875540497012911⟩
def t2 : Words8 := ⟨515830994325802548, 14183629071998335289, 12999470908563768438, 15958745148465602799, 6083449369668968327, 14482569452427320558, 16370036128513922448, 347878390568232029⟩

def u3 : Words8 := ⟨8951524253780248675, 15546108407684324192, 14890115419887823459, 8813899891663620193, 11692626276738355154, 13519764724453836835, 13516234149272232054, 16824580699985583681⟩
def t3 : Words8 := ⟨7961399629794559943, 8044009802760167032, 9245071237248261915, 11240805855591640872, 17823870662329913021, 9891796976208651372, 4060628851025154039, 4523747432362931043⟩

def u4 : Words8 := ⟨10309583473753679917, 15287952555800520333, 9652989561938917052, 1292472916363122070, 18239573826801048349, 17176141470142565027, 5226036209055568499, 11857480424539872539⟩
def t4 : Words8 := ⟨17797510456675439480, 1203651806912676539, 2770835499648494511, 1592307344542139613, 1646143750548111757, 2252788853707356457, 51646083253119615, 3201484010719496012⟩

def u5 : Words8 := ⟨14276745976024175608, 12969935416046468708, 11010272908404484873, 12581903112381670911, 1080410428072055972, 10959562949346933540, 5340544320310834855, 17952084351436082818⟩
def t5 : Words8 := ⟨18321591997636455497, 10888120514360580790, 16148539069097076747, 6823579705751693487, 2885882765508229262, 13846718385137630743, 17570330691925910733, 17062151268615721066⟩

def u6 : Words8 := ⟨4652080380915361622, 16455230995010511832, 4558145466546036127, 12887320674872744372, 10650887951911470735, 10119910410726779935, 3603315705103685859, 4221990039605603723⟩
def t6 : Words8 := ⟨472418363496961387, 12253364492190167676, 5584477104075352680, 4214191431132690719, 2513929698922672590, 12436677424911519862, 16268299578302457418, 12345455922939776261⟩

def u7 : Words8 := ⟨11856446854967143755, 4219545004126172426, 16516103774483214415, 14679438226675466717, 3355697821061117036, 16623831336894275653, 8041505207547025548, 11049438481596137221⟩
def t7 : Words8 := ⟨17261005599642026921, 13324439083990645620, 1975501709010193757, 8856805681300775069, 2273707256548831059, 6735792380243468789, 3923941307279298954, 15955872331124580392⟩

def u8 : Words8 := ⟨4528371362886965031, 3267920185657947867, 11027615284728214331, 13122135325870249853, 2439529805817384346, 7868577889401506631, 6851990460817884129, 10844869621286482893⟩
def t8 : Words8 := ⟨7026296788545218223, 17153029061261063969, 512295623587414244, 3867515209808890104, 13825632878282194957, 8489618436677004722, 11073896047625078281, 16167407239284338171⟩

def u9 : Words8 := ⟨18053196516814666110, 8204604561960820331, 5222826037133642305, 13977922236191179681, 11428067004609027959, 17552022854839127268, 13222407673430496350, 3810779391061126855⟩
def t9 : Words8 := ⟨15799084872265848448, 4752394353834963841, 3390788775369363288, 2687232533016000895, 7886724561068631277, 3290003434108207788, 11559343059594126995, 13312898288183735644⟩

def u10 : Words8 := ⟨3858070942866436953, 7057259634097645782, 14063510545402963881, 12865391357278740896, 1321707092204582284, 11690692074610378025, 10259039918160324979, 8588948410851212900⟩
def t10 : Words8 := ⟨4586469528808459074, 16549848751382053139, 10740024992298487928, 4457796376923011489, 18369305439353584878, 10166763191950486874, 4536252734294222876, 8276121461699514373⟩

def u11 : Words8 := ⟨12159743293752695734, 13574782718958021395, 6306387055401974584, 3349852825475016211, 10152966406799505544, 15930039538099450454, 2618719647411436373, 8698337005031910982⟩
def t11 : Words8 := ⟨17550555213674106633, 14436498068368933345, 8298253743671966240, 3513027827733216957, 1676278361586268684, 11982552458345637304, 8373339133169743301, 589906727618810759⟩

def u12 : Words8 := ⟨1052402086635733808, 2743723978131601252, 1123670412648903109, 752832950722751804, 16853507165559603327, 12309503291960209009, 1942470866305740186, 2696553616252184135⟩
def t12 : Words8 := ⟨2994370222014901892, 10660638449749738445, 17268898659753230898, 3860910738137384871, 11137566096209219843, 14776866535153597526, 3816582160779286297, 13419407348792503826⟩

def u13 : Words8 := ⟨13166877973280794799, 13940257889321218691, 17983891737820170685, 4253927449647703335, 3514414792011488393, 13380547063358170310, 7753365281204615361, 10547717137514638998⟩
def t13 : Words8 := ⟨3153864740583979104, 7987586065173958120, 11192028209346319725, 14834501570295947071, 8520603385025854670, 2617060339763322231, 9518245310232914811, 17239653983394563626⟩

def u14 : Words8 := ⟨13884495697035327740, 5712662675441047626, 15627416832542922546, 15391016495339929084, 2859617562851141329, 14339947214732404655, 13081244749896949465, 1907625092249589688⟩
def t14 : Words8 := ⟨4676471735205029785, 8826736285396552695, 8818393202647177632, 14821753693397895954, 8128934097264005286, 1666405177181972341, 6638462161189151571, 17590445747514882129⟩

def u15 : Words8 := ⟨16576684293000563815, 589397965039419976, 2047604206846056916, 10980565981099765460, 11389502328156585254, 124619637476841258, 16349925577881179197, 17980693952354679447⟩
def t15 : Words8 := ⟨8719945673659441150, 7359791811837255911, 16561356296205134110, 6175725632045693937, 16601953285581661567, 3693477683999390054, 474634385605655502, 9217034279457353734⟩

def u16 : Words8 := ⟨2816257472199143549, 6664574585129054103, 10106312698218230151, 16189705506243329786, 3156849360105222884, 3280094973024517447, 14319449562832571740, 17810913725182519596⟩
def t16 : Words8 := ⟨11701151157016784116, 6620463320873513465, 3358536871830641031, 11541863666095841180, 5078397398941280745, 2493223755953761850, 1073580901721264265, 6464578051361979733⟩

end Bips.Seed.JapaneseNfkd
