import Verif.Data.Words.Check

/-!
# bip39/wordlists/czech.go:23-2071

Generated by tools/gen_words.py: the words of the text `czech`, which has one word per line. The CRC-32 of the text,
proved here, is the constant of the file's `init`.
-/

namespace Bips.Data.Czech

/-- bip39/wordlists/czech.go:23-86. -/
def w0 : List Nat := words! "abdikace abeceda adresa agrese akce aktovka alej alkohol amputace ananas andulka anekdota anketa antika
  anulovat archa arogance asfalt asistent aspirace astma astronom atlas atletika atol autobus azyl babka bachor
  bacil baculka badatel bageta bagr bahno bakterie balada baletka balkon balonek balvan balza bambus bankomat
  barbar baret barman baroko barva baterka batoh bavlna bazalka bazilika bazuka bedna beran beseda bestie beton
  bezinka bezmoc beztak bicykl"

/-- bip39/wordlists/czech.go:87-150. -/
def w1 : List Nat := words! "bidlo biftek bikiny bilance biograf biolog bitva bizon blahobyt blatouch blecha bledule blesk blikat blizna
  blokovat bloudit blud bobek bobr bodlina bodnout bohatost bojkot bojovat bokorys bolest borec borovice bota
  boubel bouchat bouda boule bourat boxer bradavka brambora branka bratr brepta briketa brko brloh bronz broskev
  brunetka brusinka brzda brzy bublina bubnovat buchta buditel budka budova bufet bujarost bukvice buldok bulva
  bunda bunkr burza"

/-- bip39/wordlists/czech.go:151-214. -/
def w2 : List Nat := words! "butik buvol buzola bydlet bylina bytovka bzukot capart carevna cedr cedule cejch cejn cela celer celkem
  celnice cenina cennost cenovka centrum cenzor cestopis cetka chalupa chapadlo charita chata chechtat chemie
  chichot chirurg chlad chleba chlubit chmel chmura chobot chochol chodba cholera chomout chopit choroba chov
  chrapot chrlit chrt chrup chtivost chudina chutnat chvat chvilka chvost chyba chystat chytit cibule cigareta
  cihelna cihla cinkot cirkus"

/-- bip39/wordlists/czech.go:215-278. -/
def w3 : List Nat := words! "cisterna citace citrus cizinec cizost clona cokoliv couvat ctitel ctnost cudnost cuketa cukr cupot cvaknout
  cval cvik cvrkot cyklista daleko dareba datel datum dcera debata dechovka decibel deficit deflace dekl dekret
  demokrat deprese derby deska detektiv dikobraz diktovat dioda diplom disk displej divadlo divoch dlaha dlouho
  dluhopis dnes dobro dobytek docent dochutit dodnes dohled dohoda dohra dojem dojnice doklad dokola doktor
  dokument dolar doleva"

/-- bip39/wordlists/czech.go:279-342. -/
def w4 : List Nat := words! "dolina doma dominant domluvit domov donutit dopad dopis doplnit doposud doprovod dopustit dorazit dorost dort
  dosah doslov dostatek dosud dosyta dotaz dotek dotknout doufat doutnat dovozce dozadu doznat dozorce drahota
  drak dramatik dravec draze drdol drobnost drogerie drozd drsnost drtit drzost duben duchovno dudek duha
  duhovka dusit dusno dutost dvojice dvorec dynamit ekolog ekonomie elektron elipsa email emise emoce empatie
  epizoda epocha epopej epos"

/-- bip39/wordlists/czech.go:343-406. -/
def w5 : List Nat := words! "esej esence eskorta eskymo etiketa euforie evoluce exekuce exkurze expedice exploze export extrakt facka
  fajfka fakulta fanatik fantazie farmacie favorit fazole federace fejeton fenka fialka figurant filozof filtr
  finance finta fixace fjord flanel flirt flotila fond fosfor fotbal fotka foton frakce freska fronta fukar
  funkce fyzika galeje garant genetika geolog gilotina glazura glejt golem golfista gotika graf gramofon granule
  grep gril grog groteska guma"

/-- bip39/wordlists/czech.go:407-470. -/
def w6 : List Nat := words! "hadice hadr hala halenka hanba hanopis harfa harpuna havran hebkost hejkal hejno hejtman hektar helma hematom
  herec herna heslo hezky historik hladovka hlasivky hlava hledat hlen hlodavec hloh hloupost hltat hlubina
  hluchota hmat hmota hmyz hnis hnojivo hnout hoblina hoboj hoch hodiny hodlat hodnota hodovat hojnost hokej
  holinka holka holub homole honitba honorace horal horda horizont horko horlivec hormon hornina horoskop
  horstvo hospoda hostina"

/-- bip39/wordlists/czech.go:471-534. -/
def w7 : List Nat := words! "hotovost houba houf houpat houska hovor hradba hranice hravost hrazda hrbolek hrdina hrdlo hrdost hrnek hrobka
  hromada hrot hrouda hrozen hrstka hrubost hryzat hubenost hubnout hudba hukot humr husita hustota hvozd
  hybnost hydrant hygiena hymna hysterik idylka ihned ikona iluze imunita infekce inflace inkaso inovace
  inspekce internet invalida investor inzerce ironie jablko jachta jahoda jakmile jakost jalovec jantar jarmark
  jaro jasan jasno jatka javor"

/-- bip39/wordlists/czech.go:535-598. -/
def w8 : List Nat := words! "jazyk jedinec jedle jednatel jehlan jekot jelen jelito jemnost jenom jepice jeseter jevit jezdec jezero jinak
  jindy jinoch jiskra jistota jitrnice jizva jmenovat jogurt jurta kabaret kabel kabinet kachna kadet kadidlo
  kahan kajak kajuta kakao kaktus kalamita kalhoty kalibr kalnost kamera kamkoliv kamna kanibal kanoe kantor
  kapalina kapela kapitola kapka kaple kapota kapr kapusta kapybara karamel karotka karton kasa katalog katedra
  kauce kauza kavalec"

/-- bip39/wordlists/czech.go:599-662. -/
def w9 : List Nat := words! "kazajka kazeta kazivost kdekoliv kdesi kedluben kemp keramika kino klacek kladivo klam klapot klasika klaun
  klec klenba klepat klesnout klid klima klisna klobouk klokan klopa kloub klubovna klusat kluzkost kmen kmitat
  kmotr kniha knot koalice koberec kobka kobliha kobyla kocour kohout kojenec kokos koktejl kolaps koleda kolize
  kolo komando kometa komik komnata komora kompas komunita konat koncept kondice konec konfese kongres konina
  konkurs kontakt"

/-- bip39/wordlists/czech.go:663-726. -/
def w10 : List Nat := words! "konzerva kopanec kopie kopnout koprovka korbel korektor kormidlo koroptev korpus koruna koryto korzet kosatec
  kostka kotel kotleta kotoul koukat koupelna kousek kouzlo kovboj koza kozoroh krabice krach krajina kralovat
  krasopis kravata kredit krejcar kresba kreveta kriket kritik krize krkavec krmelec krmivo krocan krok kronika
  kropit kroupa krovka krtek kruhadlo krupice krutost krvinka krychle krypta krystal kryt kudlanka kufr kujnost
  kukla kulajda kulich kulka kulomet"

/-- bip39/wordlists/czech.go:727-790. -/
def w11 : List Nat := words! "kultura kuna kupodivu kurt kurzor kutil kvalita kvasinka kvestor kynolog kyselina kytara kytice kytka kytovec
  kyvadlo labrador lachtan ladnost laik lakomec lamela lampa lanovka lasice laso lastura latinka lavina lebka
  leckdy leden lednice ledovka ledvina legenda legie legrace lehce lehkost lehnout lektvar lenochod lentilka
  lepenka lepidlo letadlo letec letmo letokruh levhart levitace levobok libra lichotka lidojed lidskost lihovina
  lijavec lilek limetka linie linka linoleum"

/-- bip39/wordlists/czech.go:791-854. -/
def w12 : List Nat := words! "listopad litina litovat lobista lodivod logika logoped lokalita loket lomcovat lopata lopuch lord losos lotr
  loudal louh louka louskat lovec lstivost lucerna lucifer lump lusk lustrace lvice lyra lyrika lysina madam
  madlo magistr mahagon majetek majitel majorita makak makovice makrela malba malina malovat malvice maminka
  mandle manko marnost masakr maskot masopust matice matrika maturita mazanec mazivo mazlit mazurka mdloba
  mechanik meditace medovina melasa meloun"

/-- bip39/wordlists/czech.go:855-918. -/
def w13 : List Nat := words! "mentolka metla metoda metr mezera migrace mihnout mihule mikina mikrofon milenec milimetr milost mimika
  mincovna minibar minomet minulost miska mistr mixovat mladost mlha mlhovina mlok mlsat mluvit mnich mnohem
  mobil mocnost modelka modlitba mohyla mokro molekula momentka monarcha monokl monstrum montovat monzun mosaz
  moskyt most motivace motorka motyka moucha moudrost mozaika mozek mozol mramor mravenec mrkev mrtvola mrzet
  mrzutost mstitel mudrc muflon mulat mumie"

/-- bip39/wordlists/czech.go:919-982. -/
def w14 : List Nat := words! "munice muset mutace muzeum muzikant myslivec mzda nabourat nachytat nadace nadbytek nadhoz nadobro nadpis
  nahlas nahnat nahodile nahradit naivita najednou najisto najmout naklonit nakonec nakrmit nalevo namazat
  namluvit nanometr naoko naopak naostro napadat napevno naplnit napnout naposled naprosto narodit naruby
  narychlo nasadit nasekat naslepo nastat natolik navenek navrch navzdory nazvat nebe nechat necky nedaleko
  nedbat neduh negace nehet nehoda nejen nejprve neklid nelibost nemilost"

/-- bip39/wordlists/czech.go:983-1046. -/
def w15 : List Nat := words! "nemoc neochota neonka nepokoj nerost nerv nesmysl nesoulad netvor neuron nevina nezvykle nicota nijak nikam
  nikdy nikl nikterak nitro nocleh nohavice nominace nora norek nositel nosnost nouze noviny novota nozdra nuda
  nudle nuget nutit nutnost nutrie nymfa obal obarvit obava obdiv obec obehnat obejmout obezita obhajoba
  obilnice objasnit objekt obklopit oblast oblek obliba obloha obluda obnos obohatit obojek obout obrazec obrna
  obruba obrys obsah"

/-- bip39/wordlists/czech.go:1047-1110. -/
def w16 : List Nat := words! "obsluha obstarat obuv obvaz obvinit obvod obvykle obyvatel obzor ocas ocel ocenit ochladit ochota ochrana
  ocitnout odboj odbyt odchod odcizit odebrat odeslat odevzdat odezva odhadce odhodit odjet odjinud odkaz
  odkoupit odliv odluka odmlka odolnost odpad odpis odplout odpor odpustit odpykat odrazka odsoudit odstup odsun
  odtok odtud odvaha odveta odvolat odvracet odznak ofina ofsajd ohlas ohnisko ohrada ohrozit ohryzek okap
  okenice oklika okno okouzlit okovy"

/-- bip39/wordlists/czech.go:1111-1174. -/
def w17 : List Nat := words! "okrasa okres okrsek okruh okupant okurka okusit olejnina olizovat omak omeleta omezit omladina omlouvat omluva
  omyl onehdy opakovat opasek operace opice opilost opisovat opora opozice opravdu oproti orbital orchestr orgie
  orlice orloj ortel osada oschnout osika osivo oslava oslepit oslnit oslovit osnova osoba osolit ospalec osten
  ostraha ostuda ostych osvojit oteplit otisk otop otrhat otrlost otrok otruby otvor ovanout ovar oves ovlivnit
  ovoce oxid"

/-- bip39/wordlists/czech.go:1175-1238. -/
def w18 : List Nat := words! "ozdoba pachatel pacient padouch pahorek pakt palanda palec palivo paluba pamflet pamlsek panenka panika panna
  panovat panstvo pantofle paprika parketa parodie parta paruka paryba paseka pasivita pastelka patent patrona
  pavouk pazneht pazourek pecka pedagog pejsek peklo peloton penalta pendrek penze periskop pero pestrost
  petarda petice petrolej pevnina pexeso pianista piha pijavice pikle piknik pilina pilnost pilulka pinzeta
  pipeta pisatel pistole pitevna pivnice pivovar placenta"

/-- bip39/wordlists/czech.go:1239-1302. -/
def w19 : List Nat := words! "plakat plamen planeta plastika platit plavidlo plaz plech plemeno plenta ples pletivo plevel plivat plnit plno
  plocha plodina plomba plout pluk plyn pobavit pobyt pochod pocit poctivec podat podcenit podepsat podhled
  podivit podklad podmanit podnik podoba podpora podraz podstata podvod podzim poezie pohanka pohnutka pohovor
  pohroma pohyb pointa pojistka pojmout pokazit pokles pokoj pokrok pokuta pokyn poledne polibek polknout poloha
  polynom pomalu pominout pomlka"

/-- bip39/wordlists/czech.go:1303-1366. -/
def w20 : List Nat := words! "pomoc pomsta pomyslet ponechat ponorka ponurost popadat popel popisek poplach poprosit popsat popud poradce
  porce porod porucha poryv posadit posed posila poskok poslanec posoudit pospolu postava posudek posyp potah
  potkan potlesk potomek potrava potupa potvora poukaz pouto pouzdro povaha povidla povlak povoz povrch povstat
  povyk povzdech pozdrav pozemek poznatek pozor pozvat pracovat prahory praktika prales praotec praporek prase
  pravda princip prkno probudit procento prodej"

/-- bip39/wordlists/czech.go:1367-1430. -/
def w21 : List Nat := words! "profese prohra projekt prolomit promile pronikat propad prorok prosba proton proutek provaz prskavka prsten
  prudkost prut prvek prvohory psanec psovod pstruh ptactvo puberta puch pudl pukavec puklina pukrle pult pumpa
  punc pupen pusa pusinka pustina putovat putyka pyramida pysk pytel racek rachot radiace radnice radon raft
  ragby raketa rakovina rameno rampouch rande rarach rarita rasovna rastr ratolest razance razidlo reagovat
  reakce recept redaktor referent"

/-- bip39/wordlists/czech.go:1431-1494. -/
def w22 : List Nat := words! "reflex rejnok reklama rekord rekrut rektor reputace revize revma revolver rezerva riskovat riziko robotika
  rodokmen rohovka rokle rokoko romaneto ropovod ropucha rorejs rosol rostlina rotmistr rotoped rotunda roubenka
  roucho roup roura rovina rovnice rozbor rozchod rozdat rozeznat rozhodce rozinka rozjezd rozkaz rozloha rozmar
  rozpad rozruch rozsah roztok rozum rozvod rubrika ruchadlo rukavice rukopis ryba rybolov rychlost rydlo
  rypadlo rytina ryzost sadista sahat sako samec"

/-- bip39/wordlists/czech.go:1495-1558. -/
def w23 : List Nat := words! "samizdat samota sanitka sardinka sasanka satelit sazba sazenice sbor schovat sebranka secese sedadlo sediment
  sedlo sehnat sejmout sekera sekta sekunda sekvoje semeno seno servis sesadit seshora seskok seslat sestra
  sesuv sesypat setba setina setkat setnout setrvat sever seznam shoda shrnout sifon silnice sirka sirotek sirup
  situace skafandr skalisko skanzen skaut skeptik skica skladba sklenice sklo skluz skoba skokan skoro skripta
  skrz skupina skvost skvrna"

/-- bip39/wordlists/czech.go:1559-1622. -/
def w24 : List Nat := words! "slabika sladidlo slanina slast slavnost sledovat slepec sleva slezina slib slina sliznice slon sloupek slovo
  sluch sluha slunce slupka slza smaragd smetana smilstvo smlouva smog smrad smrk smrtka smutek smysl snad snaha
  snob sobota socha sodovka sokol sopka sotva souboj soucit soudce souhlas soulad soumrak souprava soused soutok
  souviset spalovna spasitel spis splav spodek spojenec spolu sponzor spornost spousta sprcha spustit sranda
  sraz srdce"

/-- bip39/wordlists/czech.go:1623-1686. -/
def w25 : List Nat := words! "srna srnec srovnat srpen srst srub stanice starosta statika stavba stehno stezka stodola stolek stopa storno
  stoupat strach stres strhnout strom struna studna stupnice stvol styk subjekt subtropy suchar sudost sukno
  sundat sunout surikata surovina svah svalstvo svetr svatba svazek svisle svitek svoboda svodidlo svorka svrab
  sykavka sykot synek synovec sypat sypkost syrovost sysel sytost tabletka tabule tahoun tajemno tajfun tajga
  tajit tajnost taktika"

/-- bip39/wordlists/czech.go:1687-1750. -/
def w26 : List Nat := words! "tamhle tampon tancovat tanec tanker tapeta tavenina tazatel technika tehdy tekutina telefon temnota tendence
  tenista tenor teplota tepna teprve terapie termoska textil ticho tiskopis titulek tkadlec tkanina tlapka
  tleskat tlukot tlupa tmel toaleta topinka topol torzo touha toulec tradice traktor tramp trasa traverza trefit
  trest trezor trhavina trhlina trochu trojice troska trouba trpce trpitel trpkost trubec truchlit truhlice trus
  trvat tudy tuhnout tuhost tundra"

/-- bip39/wordlists/czech.go:1751-1814. -/
def w27 : List Nat := words! "turista turnaj tuzemsko tvaroh tvorba tvrdost tvrz tygr tykev ubohost uboze ubrat ubrousek ubrus ubytovna ucho
  uctivost udivit uhradit ujednat ujistit ujmout ukazatel uklidnit uklonit ukotvit ukrojit ulice ulita ulovit
  umyvadlo unavit uniforma uniknout upadnout uplatnit uplynout upoutat upravit uran urazit usednout usilovat
  usmrtit usnadnit usnout usoudit ustlat ustrnout utahovat utkat utlumit utonout utopenec utrousit uvalit
  uvolnit uvozovka uzdravit uzel uzenina uzlina uznat vagon"

/-- bip39/wordlists/czech.go:1815-1878. -/
def w28 : List Nat := words! "valcha valoun vana vandal vanilka varan varhany varovat vcelku vchod vdova vedro vegetace vejce velbloud
  veletrh velitel velmoc velryba venkov veranda verze veselka veskrze vesnice vespodu vesta veterina veverka
  vibrace vichr videohra vidina vidle vila vinice viset vitalita vize vizitka vjezd vklad vkus vlajka vlak
  vlasec vlevo vlhkost vliv vlnovka vloupat vnucovat vnuk voda vodivost vodoznak vodstvo vojensky vojna vojsko
  volant volba volit volno"

/-- bip39/wordlists/czech.go:1879-1942. -/
def w29 : List Nat := words! "voskovka vozidlo vozovna vpravo vrabec vracet vrah vrata vrba vrcholek vrhat vrstva vrtule vsadit vstoupit
  vstup vtip vybavit vybrat vychovat vydat vydra vyfotit vyhledat vyhnout vyhodit vyhradit vyhubit vyjasnit
  vyjet vyjmout vyklopit vykonat vylekat vymazat vymezit vymizet vymyslet vynechat vynikat vynutit vypadat
  vyplatit vypravit vypustit vyrazit vyrovnat vyrvat vyslovit vysoko vystavit vysunout vysypat vytasit vytesat
  vytratit vyvinout vyvolat vyvrhel vyzdobit vyznat vzadu vzbudit vzchopit"

/-- bip39/wordlists/czech.go:1943-2006. -/
def w30 : List Nat := words! "vzdor vzduch vzdychat vzestup vzhledem vzkaz vzlykat vznik vzorek vzpoura vztah vztek xylofon zabrat zabydlet
  zachovat zadarmo zadusit zafoukat zahltit zahodit zahrada zahynout zajatec zajet zajistit zaklepat zakoupit
  zalepit zamezit zamotat zamyslet zanechat zanikat zaplatit zapojit zapsat zarazit zastavit zasunout zatajit
  zatemnit zatknout zaujmout zavalit zavelet zavinit zavolat zavrtat zazvonit zbavit zbrusu zbudovat zbytek
  zdaleka zdarma zdatnost zdivo zdobit zdroj zdvih zdymadlo zelenina zeman"

/-- bip39/wordlists/czech.go:2007-2070. -/
def w31 : List Nat := words! "zemina zeptat zezadu zezdola zhatit zhltnout zhluboka zhotovit zhruba zima zimnice zjemnit zklamat zkoumat
  zkratka zkumavka zlato zlehka zloba zlom zlost zlozvyk zmapovat zmar zmatek zmije zmizet zmocnit zmodrat
  zmrzlina zmutovat znak znalost znamenat znovu zobrazit zotavit zoubek zoufale zplodit zpomalit zprava zprostit
  zprudka zprvu zrada zranit zrcadlo zrnitost zrno zrovna zrychlit zrzavost zticha ztratit zubovina zubr
  zvednout zvenku zvesela zvon zvrat zvukovod zvyk"

/-- The whole list. -/
def codes : List Nat :=
  w0 ++ (w1 ++ (w2 ++ (w3 ++ (w4 ++ (w5 ++ (w6 ++ (w7 ++ (w8 ++ (w9 ++ (w10 ++ (w11 ++ (w12 ++ (w13 ++ (w14 ++ (w15 ++ (w16 ++ (w17 ++ (w18 ++ (w19 ++ (w20 ++ (w21 ++ (w22 ++ (w23 ++ (w24 ++ (w25 ++ (w26 ++ (w27 ++ (w28 ++ (w29 ++ (w30 ++ (w31)))))))))))))))))))))))))))))))

set_option maxRecDepth 100000

theorem crc0 : crcCodes w0 0xffffffff = 0xc7e03cc := by decide +kernel
theorem crc1 : crcCodes w1 0xc7e03cc = 0x499c0d6a := by decide +kernel
theorem crc2 : crcCodes w2 0x499c0d6a = 0xa59dd5a4 := by decide +kernel
theorem crc3 : crcCodes w3 0xa59dd5a4 = 0x10ecb497 := by decide +kernel
theorem crc4 : crcCodes w4 0x10ecb497 = 0x39bc0f16 := by decide +kernel
theorem crc5 : crcCodes w5 0x39bc0f16 = 0x79312f1c := by decide +kernel
theorem crc6 : crcCodes w6 0x79312f1c = 0xb748f689 := by decide +kernel
theorem crc7 : crcCodes w7 0xb748f689 = 0x5bda66aa := by decide +kernel
theorem crc8 : crcCodes w8 0x5bda66aa = 0x927f4ff4 := by decide +kernel
theorem crc9 : crcCodes w9 0x927f4ff4 = 0x10798d21 := by decide +kernel
theorem crc10 : crcCodes w10 0x10798d21 = 0xafbd803f := by decide +kernel
theorem crc11 : crcCodes w11 0xafbd803f = 0x4128cf7e := by decide +kernel
theorem crc12 : crcCodes w12 0x4128cf7e = 0x181cfa50 := by decide +kernel
theorem crc13 : crcCodes w13 0x181cfa50 = 0xf2c4bc43 := by decide +kernel
theorem crc14 : crcCodes w14 0xf2c4bc43 = 0x1e3a4c6c := by decide +kernel
theorem crc15 : crcCodes w15 0x1e3a4c6c = 0x34a1bcf5 := by decide +kernel
theorem crc16 : crcCodes w16 0x34a1bcf5 = 0xf1e06063 := by decide +kernel
theorem crc17 : crcCodes w17 0xf1e06063 = 0x5424440e := by decide +kernel
theorem crc18 : crcCodes w18 0x5424440e = 0xa0cd7df9 := by decide +kernel
theorem crc19 : crcCodes w19 0xa0cd7df9 = 0xb0438f99 := by decide +kernel
theorem crc20 : crcCodes w20 0xb0438f99 = 0xbfe328bd := by decide +kernel
theorem crc21 : crcCodes w21 0xbfe328bd = 0xf922ece0 := by decide +kernel
theorem crc22 : crcCodes w22 0xf922ece0 = 0xbfff465 := by decide +kernel
theorem crc23 : crcCodes w23 0xbfff465 = 0xde5726d4 := by decide +kernel
theorem crc24 : crcCodes w24 0xde5726d4 = 0xe1478847 := by decide +kernel
theorem crc25 : crcCodes w25 0xe1478847 = 0xba814eb5 := by decide +kernel
theorem crc26 : crcCodes w26 0xba814eb5 = 0xcb435557 := by decide +kernel
theorem crc27 : crcCodes w27 0xcb435557 = 0x143a15ad := by decide +kernel
theorem crc28 : crcCodes w28 0x143a15ad = 0xc27ca6b1 := by decide +kernel
theorem crc29 : crcCodes w29 0xc27ca6b1 = 0x50a1884f := by decide +kernel
theorem crc30 : crcCodes w30 0x50a1884f = 0xb9b41e78 := by decide +kernel
theorem crc31 : crcCodes w31 0xb9b41e78 = 0x2e4a025f := by decide +kernel

theorem crc : crcCodes codes 0xffffffff = 0x2e4a025f := by
  unfold codes
  rw [crcCodes_append, crc0,
    crcCodes_append, crc1,
    crcCodes_append, crc2,
    crcCodes_append, crc3,
    crcCodes_append, crc4,
    crcCodes_append, crc5,
    crcCodes_append, crc6,
    crcCodes_append, crc7,
    crcCodes_append, crc8,
    crcCodes_append, crc9,
    crcCodes_append, crc10,
    crcCodes_append, crc11,
    crcCodes_append, crc12,
    crcCodes_append, crc13,
    crcCodes_append, crc14,
    crcCodes_append, crc15,
    crcCodes_append, crc16,
    crcCodes_append, crc17,
    crcCodes_append, crc18,
    crcCodes_append, crc19,
    crcCodes_append, crc20,
    crcCodes_append, crc21,
    crcCodes_append, crc22,
    crcCodes_append, crc23,
    crcCodes_append, crc24,
    crcCodes_append, crc25,
    crcCodes_append, crc26,
    crcCodes_append, crc27,
    crcCodes_append, crc28,
    crcCodes_append, crc29,
    crcCodes_append, crc30, crc31]

theorem length : codes.length = 2048 := by decide +kernel

theorem distinct : distinct codes = true := by decide +kernel

theorem good : codes.all goodCode = true := by decide +kernel

end Bips.Data.Czech
