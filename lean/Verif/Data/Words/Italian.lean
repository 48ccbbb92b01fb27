import Verif.Data.Words.Check

/-!
# bip39/wordlists/italian.go:23-2071

Generated by tools/gen_words.py: the words of the text `italian`, which has one word per line. The CRC-32 of the text,
proved here, is the constant of the file's `init`.
-/

namespace Bips.Data.Italian

/-- bip39/wordlists/italian.go:23-86. -/
def w0 : List Nat := words! "abaco abbaglio abbinato abete abisso abolire abrasivo abrogato accadere accenno accusato acetone achille acido
  acqua acre acrilico acrobata acuto adagio addebito addome adeguato aderire adipe adottare adulare affabile
  affetto affisso affranto aforisma afoso africano agave agente agevole aggancio agire agitare agonismo agricolo
  agrumeto aguzzo alabarda alato albatro alberato albo albume alce alcolico alettone alfa algebra aliante alibi
  alimento allagato allegro allievo allodola allusivo almeno"

/-- bip39/wordlists/italian.go:87-150. -/
def w1 : List Nat := words! "alogeno alpaca alpestre altalena alterno alticcio altrove alunno alveolo alzare amalgama amanita amarena
  ambito ambrato ameba america ametista amico ammasso ammenda ammirare ammonito amore ampio ampliare amuleto
  anacardo anagrafe analista anarchia anatra anca ancella ancora andare andrea anello angelo angolare angusto
  anima annegare annidato anno annuncio anonimo anticipo anzi apatico apertura apode apparire appetito appoggio
  approdo appunto aprile arabica arachide aragosta araldica arancio aratura"

/-- bip39/wordlists/italian.go:151-214. -/
def w2 : List Nat := words! "arazzo arbitro archivio ardito arenile argento argine arguto aria armonia arnese arredato arringa arrosto
  arsenico arso artefice arzillo asciutto ascolto asepsi asettico asfalto asino asola aspirato aspro assaggio
  asse assoluto assurdo asta astenuto astice astratto atavico ateismo atomico atono attesa attivare attorno
  attrito attuale ausilio austria autista autonomo autunno avanzato avere avvenire avviso avvolgere azione azoto
  azzimo azzurro babele baccano bacino baco badessa badilata"

/-- bip39/wordlists/italian.go:215-278. -/
def w3 : List Nat := words! "bagnato baita balcone baldo balena ballata balzano bambino bandire baraonda barbaro barca baritono barlume
  barocco basilico basso batosta battuto baule bava bavosa becco beffa belgio belva benda benevole benigno
  benzina bere berlina beta bibita bici bidone bifido biga bilancia bimbo binocolo biologo bipede bipolare
  birbante birra biscotto bisesto bisnonno bisonte bisturi bizzarro blando blatta bollito bonifico bordo bosco
  botanico bottino bozzolo braccio bradipo brama"

/-- bip39/wordlists/italian.go:279-342. -/
def w4 : List Nat := words! "branca bravura bretella brevetto brezza briglia brillante brindare broccolo brodo bronzina brullo bruno
  bubbone buca budino buffone buio bulbo buono burlone burrasca bussola busta cadetto caduco calamaro calcolo
  calesse calibro calmo caloria cambusa camerata camicia cammino camola campale canapa candela cane canino
  canotto cantina capace capello capitolo capogiro cappero capra capsula carapace carcassa cardo carisma
  carovana carretto cartolina casaccio cascata caserma caso cassone castello"

/-- bip39/wordlists/italian.go:343-406. -/
def w5 : List Nat := words! "casuale catasta catena catrame cauto cavillo cedibile cedrata cefalo celebre cellulare cena cenone centesimo
  ceramica cercare certo cerume cervello cesoia cespo ceto chela chiaro chicca chiedere chimera china chirurgo
  chitarra ciao ciclismo cifrare cigno cilindro ciottolo circa cirrosi citrico cittadino ciuffo civetta civile
  classico clinica cloro cocco codardo codice coerente cognome collare colmato colore colposo coltivato colza
  coma cometa commando comodo computer comune conciso"

/-- bip39/wordlists/italian.go:407-470. -/
def w6 : List Nat := words! "condurre conferma congelare coniuge connesso conoscere consumo continuo convegno coperto copione coppia
  copricapo corazza cordata coricato cornice corolla corpo corredo corsia cortese cosmico costante cottura
  covato cratere cravatta creato credere cremoso crescita creta criceto crinale crisi critico croce cronaca
  crostata cruciale crusca cucire cuculo cugino cullato cupola curatore cursore curvo cuscino custode dado daino
  dalmata damerino daniela dannoso danzare datato davanti davvero debutto decennio"

/-- bip39/wordlists/italian.go:471-534. -/
def w7 : List Nat := words! "deciso declino decollo decreto dedicato definito deforme degno delegare delfino delirio delta demenza denotato
  dentro deposito derapata derivare deroga descritto deserto desiderio desumere detersivo devoto diametro
  dicembre diedro difeso diffuso digerire digitale diluvio dinamico dinnanzi dipinto diploma dipolo diradare
  dire dirotto dirupo disagio discreto disfare disgelo disposto distanza disumano dito divano divelto dividere
  divorato doblone docente doganale dogma dolce domato domenica dominare dondolo dono"

/-- bip39/wordlists/italian.go:535-598. -/
def w8 : List Nat := words! "dormire dote dottore dovuto dozzina drago druido dubbio dubitare ducale duna duomo duplice duraturo ebano
  eccesso ecco eclissi economia edera edicola edile editoria educare egemonia egli egoismo egregio elaborato
  elargire elegante elencato eletto elevare elfico elica elmo elsa eluso emanato emblema emesso emiro emotivo
  emozione empirico emulo endemico enduro energia enfasi enoteca entrare enzima epatite epilogo episodio epocale
  eppure equatore erario erba erboso erede"

/-- bip39/wordlists/italian.go:599-662. -/
def w9 : List Nat := words! "eremita erigere ermetico eroe erosivo errante esagono esame esanime esaudire esca esempio esercito esibito
  esigente esistere esito esofago esortato esoso espanso espresso essenza esso esteso estimare estonia estroso
  esultare etilico etnico etrusco etto euclideo europa evaso evidenza evitato evoluto evviva fabbrica faccenda
  fachiro falco famiglia fanale fanfara fango fantasma fare farfalla farinoso farmaco fascia fastoso fasullo
  faticare fato favoloso febbre fecola fede fegato felpa"

/-- bip39/wordlists/italian.go:663-726. -/
def w10 : List Nat := words! "feltro femmina fendere fenomeno fermento ferro fertile fessura festivo fetta feudo fiaba fiducia fifa figurato
  filo finanza finestra finire fiore fiscale fisico fiume flacone flamenco flebo flemma florido fluente fluoro
  fobico focaccia focoso foderato foglio folata folclore folgore fondente fonetico fonia fontana forbito
  forchetta foresta formica fornaio foro fortezza forzare fosfato fosso fracasso frana frassino fratello
  freccetta frenata fresco frigo frollino fronde frugale frutta"

/-- bip39/wordlists/italian.go:727-790. -/
def w11 : List Nat := words! "fucilata fucsia fuggente fulmine fulvo fumante fumetto fumoso fune funzione fuoco furbo furgone furore fuso
  futile gabbiano gaffe galateo gallina galoppo gambero gamma garanzia garbo garofano garzone gasdotto gasolio
  gastrico gatto gaudio gazebo gazzella geco gelatina gelso gemello gemmato gene genitore gennaio genotipo gergo
  ghepardo ghiaccio ghisa giallo gilda ginepro giocare gioiello giorno giove girato girone gittata giudizio
  giurato giusto globulo glutine gnomo gobba"

/-- bip39/wordlists/italian.go:791-854. -/
def w12 : List Nat := words! "golf gomito gommone gonfio gonna governo gracile grado grafico grammo grande grattare gravoso grazia greca
  gregge grifone grigio grinza grotta gruppo guadagno guaio guanto guardare gufo guidare ibernato icona identico
  idillio idolo idra idrico idrogeno igiene ignaro ignorato ilare illeso illogico illudere imballo imbevuto
  imbocco imbuto immane immerso immolato impacco impeto impiego importo impronta inalare inarcare inattivo
  incanto incendio inchino incisivo incluso incontro incrocio"

/-- bip39/wordlists/italian.go:855-918. -/
def w13 : List Nat := words! "incubo indagine india indole inedito infatti infilare inflitto ingaggio ingegno inglese ingordo ingrosso
  innesco inodore inoltrare inondato insano insetto insieme insonnia insulina intasato intero intonaco intuito
  inumidire invalido invece invito iperbole ipnotico ipotesi ippica iride irlanda ironico irrigato irrorare
  isolato isotopo isterico istituto istrice italia iterare labbro labirinto lacca lacerato lacrima lacuna
  laddove lago lampo lancetta lanterna lardoso larga laringe lastra latenza latino lattuga"

/-- bip39/wordlists/italian.go:919-982. -/
def w14 : List Nat := words! "lavagna lavoro legale leggero lembo lentezza lenza leone lepre lesivo lessato lesto letterale leva levigato
  libero lido lievito lilla limatura limitare limpido lineare lingua liquido lira lirica lisca lite litigio
  livrea locanda lode logica lombare londra longevo loquace lorenzo loto lotteria luce lucidato lumaca luminoso
  lungo lupo luppolo lusinga lusso lutto macabro macchina macero macinato madama magico maglia magnete magro
  maiolica malafede malgrado malinteso"

/-- bip39/wordlists/italian.go:983-1046. -/
def w15 : List Nat := words! "malsano malto malumore mana mancia mandorla mangiare manifesto mannaro manovra mansarda mantide manubrio mappa
  maratona marcire maretta marmo marsupio maschera massaia mastino materasso matricola mattone maturo mazurca
  meandro meccanico mecenate medesimo meditare mega melassa melis melodia meninge meno mensola mercurio merenda
  merlo meschino mese messere mestolo metallo metodo mettere miagolare mica micelio michele microbo midollo
  miele migliore milano milite mimosa minerale mini minore mirino"

/-- bip39/wordlists/italian.go:1047-1110. -/
def w16 : List Nat := words! "mirtillo miscela missiva misto misurare mitezza mitigare mitra mittente mnemonico modello modifica modulo
  mogano mogio mole molosso monastero monco mondina monetario monile monotono monsone montato monviso mora
  mordere morsicato mostro motivato motosega motto movenza movimento mozzo mucca mucosa muffa mughetto mugnaio
  mulatto mulinello multiplo mummia munto muovere murale musa muscolo musica mutevole muto nababbo nafta
  nanometro narciso narice narrato nascere nastrare naturale nautica naviglio"

/-- bip39/wordlists/italian.go:1111-1174. -/
def w17 : List Nat := words! "nebulosa necrosi negativo negozio nemmeno neofita neretto nervo nessuno nettuno neutrale neve nevrotico
  nicchia ninfa nitido nobile nocivo nodo nome nomina nordico normale norvegese nostrano notare notizia notturno
  novella nucleo nulla numero nuovo nutrire nuvola nuziale oasi obbedire obbligo obelisco oblio obolo obsoleto
  occasione occhio occidente occorrere occultare ocra oculato odierno odorare offerta offrire offuscato oggetto
  oggi ognuno olandese olfatto oliato oliva ologramma oltre"

/-- bip39/wordlists/italian.go:1175-1238. -/
def w18 : List Nat := words! "omaggio ombelico ombra omega omissione ondoso onere onice onnivoro onorevole onta operato opinione opposto
  oracolo orafo ordine orecchino orefice orfano organico origine orizzonte orma ormeggio ornativo orologio
  orrendo orribile ortensia ortica orzata orzo osare oscurare osmosi ospedale ospite ossa ossidare ostacolo oste
  otite otre ottagono ottimo ottobre ovale ovest ovino oviparo ovocito ovunque ovviare ozio pacchetto pace
  pacifico padella padrone paese paga pagina palazzina"

/-- bip39/wordlists/italian.go:1239-1302. -/
def w19 : List Nat := words! "palesare pallido palo palude pandoro pannello paolo paonazzo paprica parabola parcella parere pargolo pari
  parlato parola partire parvenza parziale passivo pasticca patacca patologia pattume pavone peccato pedalare
  pedonale peggio peloso penare pendice penisola pennuto penombra pensare pentola pepe pepita perbene percorso
  perdonato perforare pergamena periodo permesso perno perplesso persuaso pertugio pervaso pesatore pesista peso
  pestifero petalo pettine petulante pezzo piacere pianta piattino piccino picozza"

/-- bip39/wordlists/italian.go:1303-1366. -/
def w20 : List Nat := words! "piega pietra piffero pigiama pigolio pigro pila pilifero pillola pilota pimpante pineta pinna pinolo pioggia
  piombo piramide piretico pirite pirolisi pitone pizzico placebo planare plasma platano plenario pochezza
  poderoso podismo poesia poggiare polenta poligono pollice polmonite polpetta polso poltrona polvere pomice
  pomodoro ponte popoloso porfido poroso porpora porre portata posa positivo possesso postulato potassio potere
  pranzo prassi pratica precluso predica prefisso pregiato prelievo premere"

/-- bip39/wordlists/italian.go:1367-1430. -/
def w21 : List Nat := words! "prenotare preparato presenza pretesto prevalso prima principe privato problema procura produrre profumo
  progetto prolunga promessa pronome proposta proroga proteso prova prudente prugna prurito psiche pubblico
  pudica pugilato pugno pulce pulito pulsante puntare pupazzo pupilla puro quadro qualcosa quasi querela quota
  raccolto raddoppio radicale radunato raffica ragazzo ragione ragno ramarro ramingo ramo randagio rantolare
  rapato rapina rappreso rasatura raschiato rasente rassegna rastrello rata ravveduto reale"

/-- bip39/wordlists/italian.go:1431-1494. -/
def w22 : List Nat := words! "recepire recinto recluta recondito recupero reddito redimere regalato registro regola regresso relazione
  remare remoto renna replica reprimere reputare resa residente responso restauro rete retina retorica rettifica
  revocato riassunto ribadire ribelle ribrezzo ricarica ricco ricevere riciclato ricordo ricreduto ridicolo
  ridurre rifasare riflesso riforma rifugio rigare rigettato righello rilassato rilevato rimanere rimbalzo
  rimedio rimorchio rinascita rincaro rinforzo rinnovo rinomato rinsavito rintocco rinuncia rinvenire riparato
  ripetuto ripieno"

/-- bip39/wordlists/italian.go:1495-1558. -/
def w23 : List Nat := words! "riportare ripresa ripulire risata rischio riserva risibile riso rispetto ristoro risultato risvolto ritardo
  ritegno ritmico ritrovo riunione riva riverso rivincita rivolto rizoma roba robotico robusto roccia roco
  rodaggio rodere roditore rogito rollio romantico rompere ronzio rosolare rospo rotante rotondo rotula rovescio
  rubizzo rubrica ruga rullino rumine rumoroso ruolo rupe russare rustico sabato sabbiare sabotato sagoma
  salasso saldatura salgemma salivare salmone salone saltare saluto salvo"

/-- bip39/wordlists/italian.go:1559-1622. -/
def w24 : List Nat := words! "sapere sapido saporito saraceno sarcasmo sarto sassoso satellite satira satollo saturno savana savio saziato
  sbadiglio sbalzo sbancato sbarra sbattere sbavare sbendare sbirciare sbloccato sbocciato sbrinare sbruffone
  sbuffare scabroso scadenza scala scambiare scandalo scapola scarso scatenare scavato scelto scenico scettro
  scheda schiena sciarpa scienza scindere scippo sciroppo scivolo sclerare scodella scolpito scomparto sconforto
  scoprire scorta scossone scozzese scriba scrollare scrutinio scuderia scultore scuola scuro scusare"

/-- bip39/wordlists/italian.go:1623-1686. -/
def w25 : List Nat := words! "sdebitare sdoganare seccatura secondo sedano seggiola segnalato segregato seguito selciato selettivo sella
  selvaggio semaforo sembrare seme seminato sempre senso sentire sepolto sequenza serata serbato sereno serio
  serpente serraglio servire sestina setola settimana sfacelo sfaldare sfamato sfarzoso sfaticato sfera sfida
  sfilato sfinge sfocato sfoderare sfogo sfoltire sforzato sfratto sfruttato sfuggito sfumare sfuso sgabello
  sgarbato sgonfiare sgorbio sgrassato sguardo sibilo siccome sierra sigla signore silenzio sillaba"

/-- bip39/wordlists/italian.go:1687-1750. -/
def w26 : List Nat := words! "simbolo simpatico simulato sinfonia singolo sinistro sino sintesi sinusoide sipario sisma sistole situato
  slitta slogatura sloveno smarrito smemorato smentito smeraldo smilzo smontare smottato smussato snellire
  snervato snodo sobbalzo sobrio soccorso sociale sodale soffitto sogno soldato solenne solido sollazzo solo
  solubile solvente somatico somma sonda sonetto sonnifero sopire soppeso sopra sorgere sorpasso sorriso sorso
  sorteggio sorvolato sospiro sosta sottile spada spalla spargere spatola spavento spazzola"

/-- bip39/wordlists/italian.go:1751-1814. -/
def w27 : List Nat := words! "specie spedire spegnere spelatura speranza spessore spettrale spezzato spia spigoloso spillato spinoso spirale
  splendido sportivo sposo spranga sprecare spronato spruzzo spuntino squillo sradicare srotolato stabile stacco
  staffa stagnare stampato stantio starnuto stasera statuto stelo steppa sterzo stiletto stima stirpe stivale
  stizzoso stonato storico strappo stregato stridulo strozzare strutto stuccare stufo stupendo subentro succoso
  sudore suggerito sugo sultano suonare superbo supporto surgelato surrogato sussurro sutura"

/-- bip39/wordlists/italian.go:1815-1878. -/
def w28 : List Nat := words! "svagare svedese sveglio svelare svenuto svezia sviluppo svista svizzera svolta svuotare tabacco tabulato
  tacciare taciturno tale talismano tampone tannino tara tardivo targato tariffa tarpare tartaruga tasto tattico
  taverna tavolata tazza teca tecnico telefono temerario tempo temuto tendone tenero tensione tentacolo teorema
  terme terrazzo terzetto tesi tesserato testato tetro tettoia tifare tigella timbro tinto tipico tipografo
  tiraggio tiro titanio titolo titubante tizio tizzone toccare tollerare"

/-- bip39/wordlists/italian.go:1879-1942. -/
def w29 : List Nat := words! "tolto tombola tomo tonfo tonsilla topazio topologia toppa torba tornare torrone tortora toscano tossire
  tostatura totano trabocco trachea trafila tragedia tralcio tramonto transito trapano trarre trasloco trattato
  trave treccia tremolio trespolo tributo tricheco trifoglio trillo trincea trio tristezza triturato trivella
  tromba trono troppo trottola trovare truccato tubatura tuffato tulipano tumulto tunisia turbare turchino tuta
  tutela ubicato uccello uccisore udire uditivo uffa ufficio uguale ulisse"

/-- bip39/wordlists/italian.go:1943-2006. -/
def w30 : List Nat := words! "ultimato umano umile umorismo uncinetto ungere ungherese unicorno unificato unisono unitario unte uovo upupa
  uragano urgenza urlo usanza usato uscito usignolo usuraio utensile utilizzo utopia vacante vaccinato vagabondo
  vagliato valanga valgo valico valletta valoroso valutare valvola vampata vangare vanitoso vano vantaggio
  vanvera vapore varano varcato variante vasca vedetta vedova veduto vegetale veicolo velcro velina velluto
  veloce venato vendemmia vento verace verbale vergogna verifica vero"

/-- bip39/wordlists/italian.go:2007-2070. -/
def w31 : List Nat := words! "verruca verticale vescica vessillo vestale veterano vetrina vetusto viandante vibrante vicenda vichingo
  vicinanza vidimare vigilia vigneto vigore vile villano vimini vincitore viola vipera virgola virologo
  virulento viscoso visione vispo vissuto visura vita vitello vittima vivanda vivido viziare voce voga volatile
  volere volpe voragine vulcano zampogna zanna zappato zattera zavorra zefiro zelante zelo zenzero zerbino
  zibetto zinco zircone zitto zolla zotico zucchero zufolo zulu zuppa"

/-- The whole list. -/
def codes : List Nat :=
  w0 ++ (w1 ++ (w2 ++ (w3 ++ (w4 ++ (w5 ++ (w6 ++ (w7 ++ (w8 ++ (w9 ++ (w10 ++ (w11 ++ (w12 ++ (w13 ++ (w14 ++ (w15 ++ (w16 ++ (w17 ++ (w18 ++ (w19 ++ (w20 ++ (w21 ++ (w22 ++ (w23 ++ (w24 ++ (w25 ++ (w26 ++ (w27 ++ (w28 ++ (w29 ++ (w30 ++ (w31)))))))))))))))))))))))))))))))

set_option maxRecDepth 100000

theorem crc0 : crcCodes w0 0xffffffff = 0xf0e826da := by decide +kernel
theorem crc1 : crcCodes w1 0xf0e826da = 0xf234287b := by decide +kernel
theorem crc2 : crcCodes w2 0xf234287b = 0x5d9a5b48 := by decide +kernel
theorem crc3 : crcCodes w3 0x5d9a5b48 = 0x85a52867 := by decide +kernel
theorem crc4 : crcCodes w4 0x85a52867 = 0x84f02ad4 := by decide +kernel
theorem crc5 : crcCodes w5 0x84f02ad4 = 0xfc5096bc := by decide +kernel
theorem crc6 : crcCodes w6 0xfc5096bc = 0x97b7f073 := by decide +kernel
theorem crc7 : crcCodes w7 0x97b7f073 = 0x32ee9f99 := by decide +kernel
theorem crc8 : crcCodes w8 0x32ee9f99 = 0x2c154b67 := by decide +kernel
theorem crc9 : crcCodes w9 0x2c154b67 = 0x624585e5 := by decide +kernel
theorem crc10 : crcCodes w10 0x624585e5 = 0xd9f7f2f9 := by decide +kernel
theorem crc11 : crcCodes w11 0xd9f7f2f9 = 0xe017b1c5 := by decide +kernel
theorem crc12 : crcCodes w12 0xe017b1c5 = 0xd975951a := by decide +kernel
theorem crc13 : crcCodes w13 0xd975951a = 0xa63dd4ba := by decide +kernel
theorem crc14 : crcCodes w14 0xa63dd4ba = 0x4aa1f4ef := by decide +kernel
theorem crc15 : crcCodes w15 0x4aa1f4ef = 0x3bb3f94f := by decide +kernel
theorem crc16 : crcCodes w16 0x3bb3f94f = 0x4a8997ff := by decide +kernel
theorem crc17 : crcCodes w17 0x4a8997ff = 0x496af6fd := by decide +kernel
theorem crc18 : crcCodes w18 0x496af6fd = 0x6d52c89d := by decide +kernel
theorem crc19 : crcCodes w19 0x6d52c89d = 0x3491717d := by decide +kernel
theorem crc20 : crcCodes w20 0x3491717d = 0x86b4571e := by decide +kernel
theorem crc21 : crcCodes w21 0x86b4571e = 0x48b71107 := by decide +kernel
theorem crc22 : crcCodes w22 0x48b71107 = 0x231227c8 := by decide +kernel
theorem crc23 : crcCodes w23 0x231227c8 = 0xcdae2e3 := by decide +kernel
theorem crc24 : crcCodes w24 0xcdae2e3 = 0xa3d8cdc := by decide +kernel
theorem crc25 : crcCodes w25 0xa3d8cdc = 0x4ef534e7 := by decide +kernel
theorem crc26 : crcCodes w26 0x4ef534e7 = 0x9ac4ff02 := by decide +kernel
theorem crc27 : crcCodes w27 0x9ac4ff02 = 0x11b04e7c := by decide +kernel
theorem crc28 : crcCodes w28 0x11b04e7c = 0xcbddc73b := by decide +kernel
theorem crc29 : crcCodes w29 0xcbddc73b = 0xa7384d15 := by decide +kernel
theorem crc30 : crcCodes w30 0xa7384d15 = 0x9d382ec7 := by decide +kernel
theorem crc31 : crcCodes w31 0x9d382ec7 = 0xd0382f81 := by decide +kernel

theorem crc : crcCodes codes 0xffffffff = 0xd0382f81 := by
  unfold codes
  rw [crcCodes_append, crc0,
    crcCodes_append, crc1,
    crcCodes_append, crc2,
    crcCodes_append, crc3,
    crcCodes_append, crc4,
    crcCodes_append, crc5,
    crcCodes_append, crc6,
    crcCodes_append, crc7,
    crcCodes_append, crc8,
    crcCodes_append, crc9,
    crcCodes_append, crc10,
    crcCodes_append, crc11,
    crcCodes_append, crc12,
    crcCodes_append, crc13,
    crcCodes_append, crc14,
    crcCodes_append, crc15,
    crcCodes_append, crc16,
    crcCodes_append, crc17,
    crcCodes_append, crc18,
    crcCodes_append, crc19,
    crcCodes_append, crc20,
    crcCodes_append, crc21,
    crcCodes_append, crc22,
    crcCodes_append, crc23,
    crcCodes_append, crc24,
    crcCodes_append, crc25,
    crcCodes_append, crc26,
    crcCodes_append, crc27,
    crcCodes_append, crc28,
    crcCodes_append, crc29,
    crcCodes_append, crc30, crc31]

theorem length : codes.length = 2048 := by decide +kernel

theorem distinct : distinct codes = true := by decide +kernel

theorem good : codes.all goodCode = true := by decide +kernel

end Bips.Data.Italian
