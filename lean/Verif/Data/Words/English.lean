import Verif.Data.Words.Check

/-!
# bip39/wordlists/english.go:23-2071

Generated by tools/gen_words.py: the words of the text `english`, which has one word per line. The CRC-32 of the text,
proved here, is the constant of the file's `init`.
-/

namespace Bips.Data.English

/-- bip39/wordlists/english.go:23-86. -/
def w0 : List Nat := words! "abandon ability able about above absent absorb abstract absurd abuse access accident account accuse achieve
  acid acoustic acquire across act action actor actress actual adapt add addict address adjust admit adult
  advance advice aerobic affair afford afraid again age agent agree ahead aim air airport aisle alarm album
  alcohol alert alien all alley allow almost alone alpha already also alter always amateur amazing among"

/-- bip39/wordlists/english.go:87-150. -/
def w1 : List Nat := words! "amount amused analyst anchor ancient anger angle angry animal ankle announce annual another answer antenna
  antique anxiety any apart apology appear apple approve april arch arctic area arena argue arm armed armor army
  around arrange arrest arrive arrow art artefact artist artwork ask aspect assault asset assist assume asthma
  athlete atom attack attend attitude attract auction audit august aunt author auto autumn average avocado"

/-- bip39/wordlists/english.go:151-214. -/
def w2 : List Nat := words! "avoid awake aware away awesome awful awkward axis baby bachelor bacon badge bag balance balcony ball bamboo
  banana banner bar barely bargain barrel base basic basket battle beach bean beauty because become beef before
  begin behave behind believe below belt bench benefit best betray better between beyond bicycle bid bike bind
  biology bird birth bitter black blade blame blanket blast bleak bless blind blood"

/-- bip39/wordlists/english.go:215-278. -/
def w3 : List Nat := words! "blossom blouse blue blur blush board boat body boil bomb bone bonus book boost border boring borrow boss
  bottom bounce box boy bracket brain brand brass brave bread breeze brick bridge brief bright bring brisk
  broccoli broken bronze broom brother brown brush bubble buddy budget buffalo build bulb bulk bullet bundle
  bunker burden burger burst bus business busy butter buyer buzz cabbage cabin cable"

/-- bip39/wordlists/english.go:279-342. -/
def w4 : List Nat := words! "cactus cage cake call calm camera camp can canal cancel candy cannon canoe canvas canyon capable capital
  captain car carbon card cargo carpet carry cart case cash casino castle casual cat catalog catch category
  cattle caught cause caution cave ceiling celery cement census century cereal certain chair chalk champion
  change chaos chapter charge chase chat cheap check cheese chef cherry chest chicken chief child"

/-- bip39/wordlists/english.go:343-406. -/
def w5 : List Nat := words! "chimney choice choose chronic chuckle chunk churn cigar cinnamon circle citizen city civil claim clap clarify
  claw clay clean clerk clever click client cliff climb clinic clip clock clog close cloth cloud clown club
  clump cluster clutch coach coast coconut code coffee coil coin collect color column combine come comfort comic
  common company concert conduct confirm congress connect consider control convince cook cool copper"

/-- bip39/wordlists/english.go:407-470. -/
def w6 : List Nat := words! "copy coral core corn correct cost cotton couch country couple course cousin cover coyote crack cradle craft
  cram crane crash crater crawl crazy cream credit creek crew cricket crime crisp critic crop cross crouch crowd
  crucial cruel cruise crumble crunch crush cry crystal cube culture cup cupboard curious current curtain curve
  cushion custom cute cycle dad damage damp dance danger daring dash daughter dawn"

/-- bip39/wordlists/english.go:471-534. -/
def w7 : List Nat := words! "day deal debate debris decade december decide decline decorate decrease deer defense define defy degree delay
  deliver demand demise denial dentist deny depart depend deposit depth deputy derive describe desert design
  desk despair destroy detail detect develop device devote diagram dial diamond diary dice diesel diet differ
  digital dignity dilemma dinner dinosaur direct dirt disagree discover disease dish dismiss disorder display
  distance divert divide"

/-- bip39/wordlists/english.go:535-598. -/
def w8 : List Nat := words! "divorce dizzy doctor document dog doll dolphin domain donate donkey donor door dose double dove draft dragon
  drama drastic draw dream dress drift drill drink drip drive drop drum dry duck dumb dune during dust dutch
  duty dwarf dynamic eager eagle early earn earth easily east easy echo ecology economy edge edit educate effort
  egg eight either elbow elder electric elegant element elephant elevator"

/-- bip39/wordlists/english.go:599-662. -/
def w9 : List Nat := words! "elite else embark embody embrace emerge emotion employ empower empty enable enact end endless endorse enemy
  energy enforce engage engine enhance enjoy enlist enough enrich enroll ensure enter entire entry envelope
  episode equal equip era erase erode erosion error erupt escape essay essence estate eternal ethics evidence
  evil evoke evolve exact example excess exchange excite exclude excuse execute exercise exhaust exhibit exile
  exist exit"

/-- bip39/wordlists/english.go:663-726. -/
def w10 : List Nat := words! "exotic expand expect expire explain expose express extend extra eye eyebrow fabric face faculty fade faint
  faith fall false fame family famous fan fancy fantasy farm fashion fat fatal father fatigue fault favorite
  feature february federal fee feed feel female fence festival fetch fever few fiber fiction field figure file
  film filter final find fine finger finish fire firm first fiscal fish fit fitness"

/-- bip39/wordlists/english.go:727-790. -/
def w11 : List Nat := words! "fix flag flame flash flat flavor flee flight flip float flock floor flower fluid flush fly foam focus fog foil
  fold follow food foot force forest forget fork fortune forum forward fossil foster found fox fragile frame
  frequent fresh friend fringe frog front frost frown frozen fruit fuel fun funny furnace fury future gadget
  gain galaxy gallery game gap garage garbage garden garlic garment"

/-- bip39/wordlists/english.go:791-854. -/
def w12 : List Nat := words! "gas gasp gate gather gauge gaze general genius genre gentle genuine gesture ghost giant gift giggle ginger
  giraffe girl give glad glance glare glass glide glimpse globe gloom glory glove glow glue goat goddess gold
  good goose gorilla gospel gossip govern gown grab grace grain grant grape grass gravity great green grid grief
  grit grocery group grow grunt guard guess guide guilt guitar gun"

/-- bip39/wordlists/english.go:855-918. -/
def w13 : List Nat := words! "gym habit hair half hammer hamster hand happy harbor hard harsh harvest hat have hawk hazard head health heart
  heavy hedgehog height hello helmet help hen hero hidden high hill hint hip hire history hobby hockey hold hole
  holiday hollow home honey hood hope horn horror horse hospital host hotel hour hover hub huge human humble
  humor hundred hungry hunt hurdle hurry hurt husband"

/-- bip39/wordlists/english.go:919-982. -/
def w14 : List Nat := words! "hybrid ice icon idea identify idle ignore ill illegal illness image imitate immense immune impact impose
  improve impulse inch include income increase index indicate indoor industry infant inflict inform inhale
  inherit initial inject injury inmate inner innocent input inquiry insane insect inside inspire install intact
  interest into invest invite involve iron island isolate issue item ivory jacket jaguar jar jazz jealous jeans
  jelly jewel"

/-- bip39/wordlists/english.go:983-1046. -/
def w15 : List Nat := words! "job join joke journey joy judge juice jump jungle junior junk just kangaroo keen keep ketchup key kick kid
  kidney kind kingdom kiss kit kitchen kite kitten kiwi knee knife knock know lab label labor ladder lady lake
  lamp language laptop large later latin laugh laundry lava law lawn lawsuit layer lazy leader leaf learn leave
  lecture left leg legal legend leisure lemon lend"

/-- bip39/wordlists/english.go:1047-1110. -/
def w16 : List Nat := words! "length lens leopard lesson letter level liar liberty library license life lift light like limb limit link lion
  liquid list little live lizard load loan lobster local lock logic lonely long loop lottery loud lounge love
  loyal lucky luggage lumber lunar lunch luxury lyrics machine mad magic magnet maid mail main major make mammal
  man manage mandate mango mansion manual maple marble march margin"

/-- bip39/wordlists/english.go:1111-1174. -/
def w17 : List Nat := words! "marine market marriage mask mass master match material math matrix matter maximum maze meadow mean measure
  meat mechanic medal media melody melt member memory mention menu mercy merge merit merry mesh message metal
  method middle midnight milk million mimic mind minimum minor minute miracle mirror misery miss mistake mix
  mixed mixture mobile model modify mom moment monitor monkey monster month moon moral more morning"

/-- bip39/wordlists/english.go:1175-1238. -/
def w18 : List Nat := words! "mosquito mother motion motor mountain mouse move movie much muffin mule multiply muscle museum mushroom music
  must mutual myself mystery myth naive name napkin narrow nasty nation nature near neck need negative neglect
  neither nephew nerve nest net network neutral never news next nice night noble noise nominee noodle normal
  north nose notable note nothing notice novel now nuclear number nurse nut oak obey"

/-- bip39/wordlists/english.go:1239-1302. -/
def w19 : List Nat := words! "object oblige obscure observe obtain obvious occur ocean october odor off offer office often oil okay old
  olive olympic omit once one onion online only open opera opinion oppose option orange orbit orchard order
  ordinary organ orient original orphan ostrich other outdoor outer output outside oval oven over own owner
  oxygen oyster ozone pact paddle page pair palace palm panda panel panic panther paper"

/-- bip39/wordlists/english.go:1303-1366. -/
def w20 : List Nat := words! "parade parent park parrot party pass patch path patient patrol pattern pause pave payment peace peanut pear
  peasant pelican pen penalty pencil people pepper perfect permit person pet phone photo phrase physical piano
  picnic picture piece pig pigeon pill pilot pink pioneer pipe pistol pitch pizza place planet plastic plate
  play please pledge pluck plug plunge poem poet point polar pole police pond pony"

/-- bip39/wordlists/english.go:1367-1430. -/
def w21 : List Nat := words! "pool popular portion position possible post potato pottery poverty powder power practice praise predict prefer
  prepare present pretty prevent price pride primary print priority prison private prize problem process produce
  profit program project promote proof property prosper protect proud provide public pudding pull pulp pulse
  pumpkin punch pupil puppy purchase purity purpose purse push put puzzle pyramid quality quantum quarter
  question quick quit quiz"

/-- bip39/wordlists/english.go:1431-1494. -/
def w22 : List Nat := words! "quote rabbit raccoon race rack radar radio rail rain raise rally ramp ranch random range rapid rare rate
  rather raven raw razor ready real reason rebel rebuild recall receive recipe record recycle reduce reflect
  reform refuse region regret regular reject relax release relief rely remain remember remind remove render
  renew rent reopen repair repeat replace report require rescue resemble resist resource response result retire"

/-- bip39/wordlists/english.go:1495-1558. -/
def w23 : List Nat := words! "retreat return reunion reveal review reward rhythm rib ribbon rice rich ride ridge rifle right rigid ring riot
  ripple risk ritual rival river road roast robot robust rocket romance roof rookie room rose rotate rough round
  route royal rubber rude rug rule run runway rural sad saddle sadness safe sail salad salmon salon salt salute
  same sample sand satisfy satoshi sauce sausage save say"

/-- bip39/wordlists/english.go:1559-1622. -/
def w24 : List Nat := words! "scale scan scare scatter scene scheme school science scissors scorpion scout scrap screen script scrub sea
  search season seat second secret section security seed seek segment select sell seminar senior sense sentence
  series service session settle setup seven shadow shaft shallow share shed shell sheriff shield shift shine
  ship shiver shock shoe shoot shop short shoulder shove shrimp shrug shuffle shy sibling sick side"

/-- bip39/wordlists/english.go:1623-1686. -/
def w25 : List Nat := words! "siege sight sign silent silk silly silver similar simple since sing siren sister situate six size skate sketch
  ski skill skin skirt skull slab slam sleep slender slice slide slight slim slogan slot slow slush small smart
  smile smoke smooth snack snake snap sniff snow soap soccer social sock soda soft solar soldier solid solution
  solve someone song soon sorry sort soul sound soup"

/-- bip39/wordlists/english.go:1687-1750. -/
def w26 : List Nat := words! "source south space spare spatial spawn speak special speed spell spend sphere spice spider spike spin spirit
  split spoil sponsor spoon sport spot spray spread spring spy square squeeze squirrel stable stadium staff
  stage stairs stamp stand start state stay steak steel stem step stereo stick still sting stock stomach stone
  stool story stove strategy street strike strong struggle student stuff stumble style subject"

/-- bip39/wordlists/english.go:1751-1814. -/
def w27 : List Nat := words! "submit subway success such sudden suffer sugar suggest suit summer sun sunny sunset super supply supreme sure
  surface surge surprise surround survey suspect sustain swallow swamp swap swarm swear sweet swift swim swing
  switch sword symbol symptom syrup system table tackle tag tail talent talk tank tape target task taste tattoo
  taxi teach team tell ten tenant tennis tent term test text thank that"

/-- bip39/wordlists/english.go:1815-1878. -/
def w28 : List Nat := words! "theme then theory there they thing this thought three thrive throw thumb thunder ticket tide tiger tilt timber
  time tiny tip tired tissue title toast tobacco today toddler toe together toilet token tomato tomorrow tone
  tongue tonight tool tooth top topic topple torch tornado tortoise toss total tourist toward tower town toy
  track trade traffic tragic train transfer trap trash travel tray treat tree"

/-- bip39/wordlists/english.go:1879-1942. -/
def w29 : List Nat := words! "trend trial tribe trick trigger trim trip trophy trouble truck true truly trumpet trust truth try tube tuition
  tumble tuna tunnel turkey turn turtle twelve twenty twice twin twist two type typical ugly umbrella unable
  unaware uncle uncover under undo unfair unfold unhappy uniform unique unit universe unknown unlock until
  unusual unveil update upgrade uphold upon upper upset urban urge usage use used useful"

/-- bip39/wordlists/english.go:1943-2006. -/
def w30 : List Nat := words! "useless usual utility vacant vacuum vague valid valley valve van vanish vapor various vast vault vehicle
  velvet vendor venture venue verb verify version very vessel veteran viable vibrant vicious victory video view
  village vintage violin virtual virus visa visit visual vital vivid vocal voice void volcano volume vote voyage
  wage wagon wait walk wall walnut want warfare warm warrior wash wasp waste water wave"

/-- bip39/wordlists/english.go:2007-2070. -/
def w31 : List Nat := words! "way wealth weapon wear weasel weather web wedding weekend weird welcome west wet whale what wheat wheel when
  where whip whisper wide width wife wild will win window wine wing wink winner winter wire wisdom wise wish
  witness wolf woman wonder wood wool word work world worry worth wrap wreck wrestle wrist write wrong yard year
  yellow you young youth zebra zero zone zoo"

/-- The whole list. -/
def codes : List Nat :=
  w0 ++ (w1 ++ (w2 ++ (w3 ++ (w4 ++ (w5 ++ (w6 ++ (w7 ++ (w8 ++ (w9 ++ (w10 ++ (w11 ++ (w12 ++ (w13 ++ (w14 ++ (w15 ++ (w16 ++ (w17 ++ (w18 ++ (w19 ++ (w20 ++ (w21 ++ (w22 ++ (w23 ++ (w24 ++ (w25 ++ (w26 ++ (w27 ++ (w28 ++ (w29 ++ (w30 ++ (w31)))))))))))))))))))))))))))))))

set_option maxRecDepth 100000

theorem crc0 : crcCodes w0 0xffffffff = 0xd68d0f95 := by decide +kernel
theorem crc1 : crcCodes w1 0xd68d0f95 = 0x7c9ed564 := by decide +kernel
theorem crc2 : crcCodes w2 0x7c9ed564 = 0xadc1258d := by decide +kernel
theorem crc3 : crcCodes w3 0xadc1258d = 0xf8547a65 := by decide +kernel
theorem crc4 : crcCodes w4 0xf8547a65 = 0xe24043b6 := by decide +kernel
theorem crc5 : crcCodes w5 0xe24043b6 = 0x241a78e5 := by decide +kernel
theorem crc6 : crcCodes w6 0x241a78e5 = 0x87ff485e := by decide +kernel
theorem crc7 : crcCodes w7 0x87ff485e = 0x678ab7c7 := by decide +kernel
theorem crc8 : crcCodes w8 0x678ab7c7 = 0x7c3175b7 := by decide +kernel
theorem crc9 : crcCodes w9 0x7c3175b7 = 0x9b9deb49 := by decide +kernel
theorem crc10 : crcCodes w10 0x9b9deb49 = 0x30492b3a := by decide +kernel
theorem crc11 : crcCodes w11 0x30492b3a = 0xef21c5f4 := by decide +kernel
theorem crc12 : crcCodes w12 0xef21c5f4 = 0xde8a5925 := by decide +kernel
theorem crc13 : crcCodes w13 0xde8a5925 = 0xcaea302c := by decide +kernel
theorem crc14 : crcCodes w14 0xcaea302c = 0x5c405506 := by decide +kernel
theorem crc15 : crcCodes w15 0x5c405506 = 0x7aaaf380 := by decide +kernel
theorem crc16 : crcCodes w16 0x7aaaf380 = 0xed981bf := by decide +kernel
theorem crc17 : crcCodes w17 0xed981bf = 0xe70624f1 := by decide +kernel
theorem crc18 : crcCodes w18 0xe70624f1 = 0xf648a7a8 := by decide +kernel
theorem crc19 : crcCodes w19 0xf648a7a8 = 0xb9c1728c := by decide +kernel
theorem crc20 : crcCodes w20 0xb9c1728c = 0xbced95ce := by decide +kernel
theorem crc21 : crcCodes w21 0xbced95ce = 0x5c545a40 := by decide +kernel
theorem crc22 : crcCodes w22 0x5c545a40 = 0x9ff1b8bf := by decide +kernel
theorem crc23 : crcCodes w23 0x9ff1b8bf = 0x573eb6a1 := by decide +kernel
theorem crc24 : crcCodes w24 0x573eb6a1 = 0xa9eeba43 := by decide +kernel
theorem crc25 : crcCodes w25 0xa9eeba43 = 0x5c04f102 := by decide +kernel
theorem crc26 : crcCodes w26 0x5c04f102 = 0xee3b310a := by decide +kernel
theorem crc27 : crcCodes w27 0xee3b310a = 0x8f48138c := by decide +kernel
theorem crc28 : crcCodes w28 0x8f48138c = 0x9d8edf1d := by decide +kernel
theorem crc29 : crcCodes w29 0x9d8edf1d = 0x6d74ba40 := by decide +kernel
theorem crc30 : crcCodes w30 0x6d74ba40 = 0xf83bab0c := by decide +kernel
theorem crc31 : crcCodes w31 0xf83bab0c = 0x3e242d69 := by decide +kernel

theorem crc : crcCodes codes 0xffffffff = 0x3e242d69 := by
  unfold codes
  rw [crcCodes_append, crc0,
    crcCodes_append, crc1,
    crcCodes_append, crc2,
    crcCodes_append, crc3,
    crcCodes_append, crc4,
    crcCodes_append, crc5,
    crcCodes_append, crc6,
    crcCodes_append, crc7,
    crcCodes_append, crc8,
    crcCodes_append, crc9,
    crcCodes_append, crc10,
    crcCodes_append, crc11,
    crcCodes_append, crc12,
    crcCodes_append, crc13,
    crcCodes_append, crc14,
    crcCodes_append, crc15,
    crcCodes_append, crc16,
    crcCodes_append, crc17,
    crcCodes_append, crc18,
    crcCodes_append, crc19,
    crcCodes_append, crc20,
    crcCodes_append, crc21,
    crcCodes_append, crc22,
    crcCodes_append, crc23,
    crcCodes_append, crc24,
    crcCodes_append, crc25,
    crcCodes_append, crc26,
    crcCodes_append, crc27,
    crcCodes_append, crc28,
    crcCodes_append, crc29,
    crcCodes_append, crc30, crc31]

theorem length : codes.length = 2048 := by decide +kernel

theorem distinct : distinct codes = true := by decide +kernel

theorem good : codes.all goodCode = true := by decide +kernel

end Bips.Data.English
