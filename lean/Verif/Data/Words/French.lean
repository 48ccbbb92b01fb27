import Verif.Data.Words.Check

/-!
# bip39/wordlists/french.go:23-2071

Generated by tools/gen_words.py: the words of the text `french`, which has one word per line. The CRC-32 of the text,
proved here, is the constant of the file's `init`.
-/

namespace Bips.Data.French

/-- bip39/wordlists/french.go:23-86. -/
def w0 : List Nat := words! "abaisser abandon abdiquer abeille abolir aborder aboutir aboyer abrasif abreuver abriter abroger abrupt
  absence absolu absurde abusif abyssal académie acajou acarien accabler accepter acclamer accolade accroche
  accuser acerbe achat acheter aciduler acier acompte acquérir acronyme acteur actif actuel adepte adéquat
  adhésif adjectif adjuger admettre admirer adopter adorer adoucir adresse adroit adulte adverbe aérer
  aéronef affaire affecter affiche affreux affubler agacer agencer agile agiter agrafer"

/-- bip39/wordlists/french.go:87-150. -/
def w1 : List Nat := words! "agréable agrume aider aiguille ailier aimable aisance ajouter ajuster alarmer alchimie alerte algèbre algue
  aliéner aliment alléger alliage allouer allumer alourdir alpaga altesse alvéole amateur ambigu ambre
  aménager amertume amidon amiral amorcer amour amovible amphibie ampleur amusant analyse anaphore anarchie
  anatomie ancien anéantir angle angoisse anguleux animal annexer annonce annuel anodin anomalie anonyme
  anormal antenne antidote anxieux apaiser apéritif aplanir apologie appareil appeler apporter"

/-- bip39/wordlists/french.go:151-214. -/
def w2 : List Nat := words! "appuyer aquarium aqueduc arbitre arbuste ardeur ardoise argent arlequin armature armement armoire armure
  arpenter arracher arriver arroser arsenic artériel article aspect asphalte aspirer assaut asservir assiette
  associer assurer asticot astre astuce atelier atome atrium atroce attaque attentif attirer attraper aubaine
  auberge audace audible augurer aurore automne autruche avaler avancer avarice avenir averse aveugle aviateur
  avide avion aviser avoine avouer avril axial axiome badge bafouer"

/-- bip39/wordlists/french.go:215-278. -/
def w3 : List Nat := words! "bagage baguette baignade balancer balcon baleine balisage bambin bancaire bandage banlieue bannière banquier
  barbier baril baron barque barrage bassin bastion bataille bateau batterie baudrier bavarder belette bélier
  belote bénéfice berceau berger berline bermuda besace besogne bétail beurre biberon bicycle bidule bijou
  bilan bilingue billard binaire biologie biopsie biotype biscuit bison bistouri bitume bizarre blafard blague
  blanchir blessant blinder blond bloquer blouson bobard bobine boire"

/-- bip39/wordlists/french.go:279-342. -/
def w4 : List Nat := words! "boiser bolide bonbon bondir bonheur bonifier bonus bordure borne botte boucle boueux bougie boulon bouquin
  bourse boussole boutique boxeur branche brasier brave brebis brèche breuvage bricoler brigade brillant
  brioche brique brochure broder bronzer brousse broyeur brume brusque brutal bruyant buffle buisson bulletin
  bureau burin bustier butiner butoir buvable buvette cabanon cabine cachette cadeau cadre caféine caillou
  caisson calculer calepin calibre calmer calomnie calvaire camarade"

/-- bip39/wordlists/french.go:343-406. -/
def w5 : List Nat := words! "caméra camion campagne canal caneton canon cantine canular capable caporal caprice capsule capter capuche
  carabine carbone caresser caribou carnage carotte carreau carton cascade casier casque cassure causer caution
  cavalier caverne caviar cédille ceinture céleste cellule cendrier censurer central cercle cérébral cerise
  cerner cerveau cesser chagrin chaise chaleur chambre chance chapitre charbon chasseur chaton chausson chavirer
  chemise chenille chéquier chercher cheval chien chiffre chignon chimère"

/-- bip39/wordlists/french.go:407-470. -/
def w6 : List Nat := words! "chiot chlorure chocolat choisir chose chouette chrome chute cigare cigogne cimenter cinéma cintrer circuler
  cirer cirque citerne citoyen citron civil clairon clameur claquer classe clavier client cligner climat clivage
  cloche clonage cloporte cobalt cobra cocasse cocotier coder codifier coffre cogner cohésion coiffer coincer
  colère colibri colline colmater colonel combat comédie commande compact concert conduire confier congeler
  connoter consonne contact convexe copain copie corail corbeau"

/-- bip39/wordlists/french.go:471-534. -/
def w7 : List Nat := words! "cordage corniche corpus correct cortège cosmique costume coton coude coupure courage couteau couvrir coyote
  crabe crainte cravate crayon créature créditer crémeux creuser crevette cribler crier cristal critère
  croire croquer crotale crucial cruel crypter cubique cueillir cuillère cuisine cuivre culminer cultiver
  cumuler cupide curatif curseur cyanure cycle cylindre cynique daigner damier danger danseur dauphin débattre
  débiter déborder débrider débutant décaler décembre déchirer décider déclarer décorer"

/-- bip39/wordlists/french.go:535-598. -/
def w8 : List Nat := words! "décrire décupler dédale déductif déesse défensif défiler défrayer dégager dégivrer déglutir
  dégrafer déjeuner délice déloger demander demeurer démolir dénicher dénouer dentelle dénuder départ
  dépenser déphaser déplacer déposer déranger dérober désastre descente désert désigner désobéir
  dessiner destrier détacher détester détourer détresse devancer devenir deviner devoir diable dialogue
  diamant dicter différer digérer digital digne diluer dimanche diminuer dioxyde directif diriger discuter
  disposer dissiper distance divertir diviser"

/-- bip39/wordlists/french.go:599-662. -/
def w9 : List Nat := words! "docile docteur dogme doigt domaine domicile dompter donateur donjon donner dopamine dortoir dorure dosage
  doseur dossier dotation douanier double douceur douter doyen dragon draper dresser dribbler droiture duperie
  duplexe durable durcir dynastie éblouir écarter écharpe échelle éclairer éclipse éclore écluse école
  économie écorce écouter écraser écrémer écrivain écrou écume écureuil édifier éduquer effacer
  effectif effigie effort effrayer effusion égaliser égarer éjecter élaborer élargir électron"

/-- bip39/wordlists/french.go:663-726. -/
def w10 : List Nat := words! "élégant éléphant élève éligible élitisme éloge élucider éluder emballer embellir embryon émeraude
  émission emmener émotion émouvoir empereur employer emporter emprise émulsion encadrer enchère enclave
  encoche endiguer endosser endroit enduire énergie enfance enfermer enfouir engager engin englober énigme
  enjamber enjeu enlever ennemi ennuyeux enrichir enrobage enseigne entasser entendre entier entourer entraver
  énumérer envahir enviable envoyer enzyme éolien épaissir épargne épatant épaule épicerie épidémie
  épier épilogue"

/-- bip39/wordlists/french.go:727-790. -/
def w11 : List Nat := words! "épine épisode épitaphe époque épreuve éprouver épuisant équerre équipe ériger érosion erreur
  éruption escalier espadon espèce espiègle espoir esprit esquiver essayer essence essieu essorer estime
  estomac estrade étagère étaler étanche étatique éteindre étendoir éternel éthanol éthique ethnie
  étirer étoffer étoile étonnant étourdir étrange étroit étude euphorie évaluer évasion éventail
  évidence éviter évolutif évoquer exact exagérer exaucer exceller excitant exclusif excuse exécuter
  exemple exercer exhaler"

/-- bip39/wordlists/french.go:791-854. -/
def w12 : List Nat := words! "exhorter exigence exiler exister exotique expédier explorer exposer exprimer exquis extensif extraire exulter
  fable fabuleux facette facile facture faiblir falaise fameux famille farceur farfelu farine farouche fasciner
  fatal fatigue faucon fautif faveur favori fébrile féconder fédérer félin femme fémur fendoir féodal
  fermer féroce ferveur festival feuille feutre février fiasco ficeler fictif fidèle figure filature filetage
  filière filleul filmer filou filtrer financer finir fiole firme"

/-- bip39/wordlists/french.go:855-918. -/
def w13 : List Nat := words! "fissure fixer flairer flamme flasque flatteur fléau flèche fleur flexion flocon flore fluctuer fluide
  fluvial folie fonderie fongible fontaine forcer forgeron formuler fortune fossile foudre fougère fouiller
  foulure fourmi fragile fraise franchir frapper frayeur frégate freiner frelon frémir frénésie frère
  friable friction frisson frivole froid fromage frontal frotter fruit fugitif fuite fureur furieux furtif
  fusion futur gagner galaxie galerie gambader garantir gardien garnir garrigue"

/-- bip39/wordlists/french.go:919-982. -/
def w14 : List Nat := words! "gazelle gazon géant gélatine gélule gendarme général génie genou gentil géologie géomètre géranium
  germe gestuel geyser gibier gicler girafe givre glace glaive glisser globe gloire glorieux golfeur gomme
  gonfler gorge gorille goudron gouffre goulot goupille gourmand goutte graduel graffiti graine grand grappin
  gratuit gravir grenat griffure griller grimper grogner gronder grotte groupe gruger grutier gruyère guépard
  guerrier guide guimauve guitare gustatif gymnaste gyrostat habitude"

/-- bip39/wordlists/french.go:983-1046. -/
def w15 : List Nat := words! "hachoir halte hameau hangar hanneton haricot harmonie harpon hasard hélium hématome herbe hérisson hermine
  héron hésiter heureux hiberner hibou hilarant histoire hiver homard hommage homogène honneur honorer
  honteux horde horizon horloge hormone horrible houleux housse hublot huileux humain humble humide humour
  hurler hydromel hygiène hymne hypnose idylle ignorer iguane illicite illusion image imbiber imiter immense
  immobile immuable impact impérial implorer imposer imprimer imputer incarner"

/-- bip39/wordlists/french.go:1047-1110. -/
def w16 : List Nat := words! "incendie incident incliner incolore indexer indice inductif inédit ineptie inexact infini infliger informer
  infusion ingérer inhaler inhiber injecter injure innocent inoculer inonder inscrire insecte insigne insolite
  inspirer instinct insulter intact intense intime intrigue intuitif inutile invasion inventer inviter invoquer
  ironique irradier irréel irriter isoler ivoire ivresse jaguar jaillir jambe janvier jardin jauger jaune
  javelot jetable jeton jeudi jeunesse joindre joncher jongler joueur jouissif journal"

/-- bip39/wordlists/french.go:1111-1174. -/
def w17 : List Nat := words! "jovial joyau joyeux jubiler jugement junior jupon juriste justice juteux juvénile kayak kimono kiosque label
  labial labourer lacérer lactose lagune laine laisser laitier lambeau lamelle lampe lanceur langage lanterne
  lapin largeur larme laurier lavabo lavoir lecture légal léger légume lessive lettre levier lexique lézard
  liasse libérer libre licence licorne liège lièvre ligature ligoter ligue limer limite limonade limpide
  linéaire lingot lionceau liquide lisière lister"

/-- bip39/wordlists/french.go:1175-1238. -/
def w18 : List Nat := words! "lithium litige littoral livreur logique lointain loisir lombric loterie louer lourd loutre louve loyal lubie
  lucide lucratif lueur lugubre luisant lumière lunaire lundi luron lutter luxueux machine magasin magenta
  magique maigre maillon maintien mairie maison majorer malaxer maléfice malheur malice mallette mammouth
  mandater maniable manquant manteau manuel marathon marbre marchand mardi maritime marqueur marron marteler
  mascotte massif matériel matière matraque maudire maussade mauve maximal"

/-- bip39/wordlists/french.go:1239-1302. -/
def w19 : List Nat := words! "méchant méconnu médaille médecin méditer méduse meilleur mélange mélodie membre mémoire menacer mener
  menhir mensonge mentor mercredi mérite merle messager mesure métal météore méthode métier meuble miauler
  microbe miette mignon migrer milieu million mimique mince minéral minimal minorer minute miracle miroiter
  missile mixte mobile moderne moelleux mondial moniteur monnaie monotone monstre montagne monument moqueur
  morceau morsure mortier moteur motif mouche moufle moulin mousson mouton"

/-- bip39/wordlists/french.go:1303-1366. -/
def w20 : List Nat := words! "mouvant multiple munition muraille murène murmure muscle muséum musicien mutation muter mutuel myriade
  myrtille mystère mythique nageur nappe narquois narrer natation nation nature naufrage nautique navire
  nébuleux nectar néfaste négation négliger négocier neige nerveux nettoyer neurone neutron neveu niche
  nickel nitrate niveau noble nocif nocturne noirceur noisette nomade nombreux nommer normatif notable notifier
  notoire nourrir nouveau novateur novembre novice nuage nuancer nuire nuisible numéro"

/-- bip39/wordlists/french.go:1367-1430. -/
def w21 : List Nat := words! "nuptial nuque nutritif obéir objectif obliger obscur observer obstacle obtenir obturer occasion occuper
  océan octobre octroyer octupler oculaire odeur odorant offenser officier offrir ogive oiseau oisillon
  olfactif olivier ombrage omettre onctueux onduler onéreux onirique opale opaque opérer opinion opportun
  opprimer opter optique orageux orange orbite ordonner oreille organe orgueil orifice ornement orque ortie
  osciller osmose ossature otarie ouragan ourson outil outrager ouvrage ovation oxyde"

/-- bip39/wordlists/french.go:1431-1494. -/
def w22 : List Nat := words! "oxygène ozone paisible palace palmarès palourde palper panache panda pangolin paniquer panneau panorama
  pantalon papaye papier papoter papyrus paradoxe parcelle paresse parfumer parler parole parrain parsemer
  partager parure parvenir passion pastèque paternel patience patron pavillon pavoiser payer paysage peigne
  peintre pelage pélican pelle pelouse peluche pendule pénétrer pénible pensif pénurie pépite péplum
  perdrix perforer période permuter perplexe persil perte peser pétale petit pétrir peuple"

/-- bip39/wordlists/french.go:1495-1558. -/
def w23 : List Nat := words! "pharaon phobie phoque photon phrase physique piano pictural pièce pierre pieuvre pilote pinceau pipette
  piquer pirogue piscine piston pivoter pixel pizza placard plafond plaisir planer plaque plastron plateau
  pleurer plexus pliage plomb plonger pluie plumage pochette poésie poète pointe poirier poisson poivre
  polaire policier pollen polygone pommade pompier ponctuel pondérer poney portique position posséder posture
  potager poteau potion pouce poulain poumon pourpre poussin pouvoir"

/-- bip39/wordlists/french.go:1559-1622. -/
def w24 : List Nat := words! "prairie pratique précieux prédire préfixe prélude prénom présence prétexte prévoir primitif prince
  prison priver problème procéder prodige profond progrès proie projeter prologue promener propre prospère
  protéger prouesse proverbe prudence pruneau psychose public puceron puiser pulpe pulsar punaise punitif
  pupitre purifier puzzle pyramide quasar querelle question quiétude quitter quotient racine raconter radieux
  ragondin raideur raisin ralentir rallonge ramasser rapide rasage ratisser ravager ravin rayonner réactif"

/-- bip39/wordlists/french.go:1623-1686. -/
def w25 : List Nat := words! "réagir réaliser réanimer recevoir réciter réclamer récolter recruter reculer recycler rédiger redouter
  refaire réflexe réformer refrain refuge régalien région réglage régulier réitérer rejeter rejouer
  relatif relever relief remarque remède remise remonter remplir remuer renard renfort renifler renoncer
  rentrer renvoi replier reporter reprise reptile requin réserve résineux résoudre respect rester résultat
  rétablir retenir réticule retomber retracer réunion réussir revanche revivre révolte révulsif richesse
  rideau rieur"

/-- bip39/wordlists/french.go:1687-1750. -/
def w26 : List Nat := words! "rigide rigoler rincer riposter risible risque rituel rival rivière rocheux romance rompre ronce rondin roseau
  rosier rotatif rotor rotule rouge rouille rouleau routine royaume ruban rubis ruche ruelle rugueux ruiner
  ruisseau ruser rustique rythme sabler saboter sabre sacoche safari sagesse saisir salade salive salon saluer
  samedi sanction sanglier sarcasme sardine saturer saugrenu saumon sauter sauvage savant savonner scalpel
  scandale scélérat scénario sceptre schéma science"

/-- bip39/wordlists/french.go:1751-1814. -/
def w27 : List Nat := words! "scinder score scrutin sculpter séance sécable sécher secouer sécréter sédatif séduire seigneur séjour
  sélectif semaine sembler semence séminal sénateur sensible sentence séparer séquence serein sergent
  sérieux serrure sérum service sésame sévir sevrage sextuple sidéral siècle siéger siffler sigle signal
  silence silicium simple sincère sinistre siphon sirop sismique situer skier social socle sodium soigneux
  soldat soleil solitude soluble sombre sommeil somnoler sonde songeur sonnette sonore"

/-- bip39/wordlists/french.go:1815-1878. -/
def w28 : List Nat := words! "sorcier sortir sosie sottise soucieux soudure souffle soulever soupape source soutirer souvenir spacieux
  spatial spécial sphère spiral stable station sternum stimulus stipuler strict studieux stupeur styliste
  sublime substrat subtil subvenir succès sucre suffixe suggérer suiveur sulfate superbe supplier surface
  suricate surmener surprise sursaut survie suspect syllabe symbole symétrie synapse syntaxe système tabac
  tablier tactile tailler talent talisman talonner tambour tamiser tangible tapis taquiner tarder"

/-- bip39/wordlists/french.go:1879-1942. -/
def w29 : List Nat := words! "tarif tartine tasse tatami tatouage taupe taureau taxer témoin temporel tenaille tendre teneur tenir tension
  terminer terne terrible tétine texte thème théorie thérapie thorax tibia tiède timide tirelire tiroir
  tissu titane titre tituber toboggan tolérant tomate tonique tonneau toponyme torche tordre tornade torpille
  torrent torse tortue totem toucher tournage tousser toxine traction trafic tragique trahir train trancher
  travail trèfle tremper trésor treuil triage tribunal"

/-- bip39/wordlists/french.go:1943-2006. -/
def w30 : List Nat := words! "tricoter trilogie triomphe tripler triturer trivial trombone tronc tropical troupeau tuile tulipe tumulte
  tunnel turbine tuteur tutoyer tuyau tympan typhon typique tyran ubuesque ultime ultrason unanime unifier union
  unique unitaire univers uranium urbain urticant usage usine usuel usure utile utopie vacarme vaccin vagabond
  vague vaillant vaincre vaisseau valable valise vallon valve vampire vanille vapeur varier vaseux vassal vaste
  vecteur vedette végétal véhicule veinard véloce"

/-- bip39/wordlists/french.go:2007-2070. -/
def w31 : List Nat := words! "vendredi vénérer venger venimeux ventouse verdure vérin vernir verrou verser vertu veston vétéran
  vétuste vexant vexer viaduc viande victoire vidange vidéo vignette vigueur vilain village vinaigre violon
  vipère virement virtuose virus visage viseur vision visqueux visuel vital vitesse viticole vitrine vivace
  vivipare vocation voguer voile voisin voiture volaille volcan voltiger volume vorace vortex voter vouloir
  voyage voyelle wagon xénon yacht zèbre zénith zeste zoologie"

/-- The whole list. -/
def codes : List Nat :=
  w0 ++ (w1 ++ (w2 ++ (w3 ++ (w4 ++ (w5 ++ (w6 ++ (w7 ++ (w8 ++ (w9 ++ (w10 ++ (w11 ++ (w12 ++ (w13 ++ (w14 ++ (w15 ++ (w16 ++ (w17 ++ (w18 ++ (w19 ++ (w20 ++ (w21 ++ (w22 ++ (w23 ++ (w24 ++ (w25 ++ (w26 ++ (w27 ++ (w28 ++ (w29 ++ (w30 ++ (w31)))))))))))))))))))))))))))))))

set_option maxRecDepth 100000

theorem crc0 : crcCodes w0 0xffffffff = 0x7fcf9a78 := by decide +kernel
theorem crc1 : crcCodes w1 0x7fcf9a78 = 0xad28854b := by decide +kernel
theorem crc2 : crcCodes w2 0xad28854b = 0x1146647a := by decide +kernel
theorem crc3 : crcCodes w3 0x1146647a = 0xee9744cd := by decide +kernel
theorem crc4 : crcCodes w4 0xee9744cd = 0xf78b80af := by decide +kernel
theorem crc5 : crcCodes w5 0xf78b80af = 0x736ccec9 := by decide +kernel
theorem crc6 : crcCodes w6 0x736ccec9 = 0xffaca80b := by decide +kernel
theorem crc7 : crcCodes w7 0xffaca80b = 0x4b3c2c94 := by decide +kernel
theorem crc8 : crcCodes w8 0x4b3c2c94 = 0x20d90a3 := by decide +kernel
theorem crc9 : crcCodes w9 0x20d90a3 = 0xe434f285 := by decide +kernel
theorem crc10 : crcCodes w10 0xe434f285 = 0xd2c7ed66 := by decide +kernel
theorem crc11 : crcCodes w11 0xd2c7ed66 = 0x41e2e439 := by decide +kernel
theorem crc12 : crcCodes w12 0x41e2e439 = 0x6fc538c := by decide +kernel
theorem crc13 : crcCodes w13 0x6fc538c = 0xf0825596 := by decide +kernel
theorem crc14 : crcCodes w14 0xf0825596 = 0x3e13a79c := by decide +kernel
theorem crc15 : crcCodes w15 0x3e13a79c = 0x5b01ca01 := by decide +kernel
theorem crc16 : crcCodes w16 0x5b01ca01 = 0x5c20458c := by decide +kernel
theorem crc17 : crcCodes w17 0x5c20458c = 0x902c270f := by decide +kernel
theorem crc18 : crcCodes w18 0x902c270f = 0x467e92f5 := by decide +kernel
theorem crc19 : crcCodes w19 0x467e92f5 = 0x68126b0 := by decide +kernel
theorem crc20 : crcCodes w20 0x68126b0 = 0x891b978d := by decide +kernel
theorem crc21 : crcCodes w21 0x891b978d = 0xec09c8c9 := by decide +kernel
theorem crc22 : crcCodes w22 0xec09c8c9 = 0x48deb477 := by decide +kernel
theorem crc23 : crcCodes w23 0x48deb477 = 0xd2aa47d4 := by decide +kernel
theorem crc24 : crcCodes w24 0xd2aa47d4 = 0xf4456e50 := by decide +kernel
theorem crc25 : crcCodes w25 0xf4456e50 = 0x7c991d3c := by decide +kernel
theorem crc26 : crcCodes w26 0x7c991d3c = 0x7f23db39 := by decide +kernel
theorem crc27 : crcCodes w27 0x7f23db39 = 0xbe2794d2 := by decide +kernel
theorem crc28 : crcCodes w28 0xbe2794d2 = 0xcb81c16f := by decide +kernel
theorem crc29 : crcCodes w29 0xcb81c16f = 0xc22f7ad4 := by decide +kernel
theorem crc30 : crcCodes w30 0xc22f7ad4 = 0x46933ac9 := by decide +kernel
theorem crc31 : crcCodes w31 0x46933ac9 = 0xc1a94de9 := by decide +kernel

theorem crc : crcCodes codes 0xffffffff = 0xc1a94de9 := by
  unfold codes
  rw [crcCodes_append, crc0,
    crcCodes_append, crc1,
    crcCodes_append, crc2,
    crcCodes_append, crc3,
    crcCodes_append, crc4,
    crcCodes_append, crc5,
    crcCodes_append, crc6,
    crcCodes_append, crc7,
    crcCodes_append, crc8,
    crcCodes_append, crc9,
    crcCodes_append, crc10,
    crcCodes_append, crc11,
    crcCodes_append, crc12,
    crcCodes_append, crc13,
    crcCodes_append, crc14,
    crcCodes_append, crc15,
    crcCodes_append, crc16,
    crcCodes_append, crc17,
    crcCodes_append, crc18,
    crcCodes_append, crc19,
    crcCodes_append, crc20,
    crcCodes_append, crc21,
    crcCodes_append, crc22,
    crcCodes_append, crc23,
    crcCodes_append, crc24,
    crcCodes_append, crc25,
    crcCodes_append, crc26,
    crcCodes_append, crc27,
    crcCodes_append, crc28,
    crcCodes_append, crc29,
    crcCodes_append, crc30, crc31]

theorem length : codes.length = 2048 := by decide +kernel

theorem distinct : distinct codes = true := by decide +kernel

theorem good : codes.all goodCode = true := by decide +kernel

end Bips.Data.French
