import Verif.Data.Words.Check

/-!
# bip39/wordlists/portuguese.go:23-2071

Generated by tools/gen_words.py: the words of the text `portuguese`, which has one word per line. The CRC-32 of the text,
proved here, is the constant of the file's `init`.
-/

namespace Bips.Data.Portuguese

/-- bip39/wordlists/portuguese.go:23-86. -/
def w0 : List Nat := words! "abacate abaixo abalar abater abduzir abelha aberto abismo abotoar abranger abreviar abrigar abrupto absinto
  absoluto absurdo abutre acabado acalmar acampar acanhar acaso aceitar acelerar acenar acervo acessar acetona
  achatar acidez acima acionado acirrar aclamar aclive acolhida acomodar acoplar acordar acumular acusador
  adaptar adega adentro adepto adequar aderente adesivo adeus adiante aditivo adjetivo adjunto admirar adorar
  adquirir adubo adverso advogado aeronave afastar aferir afetivo afinador"

/-- bip39/wordlists/portuguese.go:87-150. -/
def w1 : List Nat := words! "afivelar aflito afluente afrontar agachar agarrar agasalho agenciar agilizar agiota agitado agora agradar
  agreste agrupar aguardar agulha ajoelhar ajudar ajustar alameda alarme alastrar alavanca albergue albino
  alcatra aldeia alecrim alegria alertar alface alfinete algum alheio aliar alicate alienar alinhar aliviar
  almofada alocar alpiste alterar altitude alucinar alugar aluno alusivo alvo amaciar amador amarelo amassar
  ambas ambiente ameixa amenizar amido amistoso amizade amolador amontoar amoroso"

/-- bip39/wordlists/portuguese.go:151-214. -/
def w2 : List Nat := words! "amostra amparar ampliar ampola anagrama analisar anarquia anatomia andaime anel anexo angular animar anjo
  anomalia anotado ansioso anterior anuidade anunciar anzol apagador apalpar apanhado apego apelido apertada
  apesar apetite apito aplauso aplicada apoio apontar aposta aprendiz aprovar aquecer arame aranha arara arcada
  ardente areia arejar arenito aresta argiloso argola arma arquivo arraial arrebate arriscar arroba arrumar
  arsenal arterial artigo arvoredo asfaltar asilado aspirar assador"

/-- bip39/wordlists/portuguese.go:215-278. -/
def w3 : List Nat := words! "assinar assoalho assunto astral atacado atadura atalho atarefar atear atender aterro ateu atingir atirador
  ativo atoleiro atracar atrevido atriz atual atum auditor aumentar aura aurora autismo autoria autuar avaliar
  avante avaria avental avesso aviador avisar avulso axila azarar azedo azeite azulejo babar babosa bacalhau
  bacharel bacia bagagem baiano bailar baioneta bairro baixista bajular baleia baliza balsa banal bandeira banho
  banir banquete barato barbado baronesa"

/-- bip39/wordlists/portuguese.go:279-342. -/
def w4 : List Nat := words! "barraca barulho baseado bastante batata batedor batida batom batucar baunilha beber beijo beirada beisebol
  beldade beleza belga beliscar bendito bengala benzer berimbau berlinda berro besouro bexiga bezerro bico
  bicudo bienal bifocal bifurcar bigorna bilhete bimestre bimotor biologia biombo biosfera bipolar birrento
  biscoito bisneto bispo bissexto bitola bizarro blindado bloco bloquear boato bobagem bocado bocejo bochecha
  boicotar bolada boletim bolha bolo bombeiro bonde boneco bonita"

/-- bip39/wordlists/portuguese.go:343-406. -/
def w5 : List Nat := words! "borbulha borda boreal borracha bovino boxeador branco brasa braveza breu briga brilho brincar broa brochura
  bronzear broto bruxo bucha budismo bufar bule buraco busca busto buzina cabana cabelo cabide cabo cabrito
  cacau cacetada cachorro cacique cadastro cadeado cafezal caiaque caipira caixote cajado caju calafrio calcular
  caldeira calibrar calmante calota camada cambista camisa camomila campanha camuflar canavial cancelar caneta
  canguru canhoto canivete canoa cansado cantar"

/-- bip39/wordlists/portuguese.go:407-470. -/
def w6 : List Nat := words! "canudo capacho capela capinar capotar capricho captador capuz caracol carbono cardeal careca carimbar carneiro
  carpete carreira cartaz carvalho casaco casca casebre castelo casulo catarata cativar caule causador cautelar
  cavalo caverna cebola cedilha cegonha celebrar celular cenoura censo centeio cercar cerrado certeiro cerveja
  cetim cevada chacota chaleira chamado chapada charme chatice chave chefe chegada cheiro cheque chicote chifre
  chinelo chocalho chover chumbo chutar chuva cicatriz"

/-- bip39/wordlists/portuguese.go:471-534. -/
def w7 : List Nat := words! "ciclone cidade cidreira ciente cigana cimento cinto cinza ciranda circuito cirurgia citar clareza clero clicar
  clone clube coado coagir cobaia cobertor cobrar cocada coelho coentro coeso cogumelo coibir coifa coiote colar
  coleira colher colidir colmeia colono coluna comando combinar comentar comitiva comover complexo comum concha
  condor conectar confuso congelar conhecer conjugar consumir contrato convite cooperar copeiro copiador copo
  coquetel coragem cordial corneta coronha corporal"

/-- bip39/wordlists/portuguese.go:535-598. -/
def w8 : List Nat := words! "correio cortejo coruja corvo cosseno costela cotonete couro couve covil cozinha cratera cravo creche credor
  creme crer crespo criada criminal crioulo crise criticar crosta crua cruzeiro cubano cueca cuidado cujo
  culatra culminar culpar cultura cumprir cunhado cupido curativo curral cursar curto cuspir custear cutelo
  damasco datar debater debitar deboche debulhar decalque decimal declive decote decretar dedal dedicado deduzir
  defesa defumar degelo degrau degustar deitado"

/-- bip39/wordlists/portuguese.go:599-662. -/
def w9 : List Nat := words! "deixar delator delegado delinear delonga demanda demitir demolido dentista depenado depilar depois depressa
  depurar deriva derramar desafio desbotar descanso desenho desfiado desgaste desigual deslize desmamar desova
  despesa destaque desviar detalhar detentor detonar detrito deusa dever devido devotado dezena diagrama dialeto
  didata difuso digitar dilatado diluente diminuir dinastia dinheiro diocese direto discreta disfarce disparo
  disquete dissipar distante ditador diurno diverso divisor divulgar dizer dobrador dolorido"

/-- bip39/wordlists/portuguese.go:663-726. -/
def w10 : List Nat := words! "domador dominado donativo donzela dormente dorsal dosagem dourado doutor drenagem drible drogaria duelar
  duende dueto duplo duquesa durante duvidoso eclodir ecoar ecologia edificar edital educado efeito efetivar
  ejetar elaborar eleger eleitor elenco elevador eliminar elogiar embargo embolado embrulho embutido emenda
  emergir emissor empatia empenho empinado empolgar emprego empurrar emulador encaixe encenado enchente encontro
  endeusar endossar enfaixar enfeite enfim engajado engenho englobar engomado engraxar enguia"

/-- bip39/wordlists/portuguese.go:727-790. -/
def w11 : List Nat := words! "enjoar enlatar enquanto enraizar enrolado enrugar ensaio enseada ensino ensopado entanto enteado entidade
  entortar entrada entulho envergar enviado envolver enxame enxerto enxofre enxuto epiderme equipar ereto
  erguido errata erva ervilha esbanjar esbelto escama escola escrita escuta esfinge esfolar esfregar esfumado
  esgrima esmalte espanto espelho espiga esponja espreita espumar esquerda estaca esteira esticar estofado
  estrela estudo esvaziar etanol etiqueta euforia europeu evacuar evaporar evasivo eventual"

/-- bip39/wordlists/portuguese.go:791-854. -/
def w12 : List Nat := words! "evidente evoluir exagero exalar examinar exato exausto excesso excitar exclamar executar exemplo exibir
  exigente exonerar expandir expelir expirar explanar exposto expresso expulsar externo extinto extrato fabricar
  fabuloso faceta facial fada fadiga faixa falar falta familiar fandango fanfarra fantoche fardado farelo
  farinha farofa farpa fartura fatia fator favorita faxina fazenda fechado feijoada feirante felino feminino
  fenda feno fera feriado ferrugem ferver festejar fetal feudal fiapo"

/-- bip39/wordlists/portuguese.go:855-918. -/
def w13 : List Nat := words! "fibrose ficar ficheiro figurado fileira filho filme filtrar firmeza fisgada fissura fita fivela fixador fixo
  flacidez flamingo flanela flechada flora flutuar fluxo focal focinho fofocar fogo foguete foice folgado
  folheto forjar formiga forno forte fosco fossa fragata fralda frango frasco fraterno freira frente fretar
  frieza friso fritura fronha frustrar fruteira fugir fulano fuligem fundar fungo funil furador furioso futebol
  gabarito gabinete gado gaiato gaiola"

/-- bip39/wordlists/portuguese.go:919-982. -/
def w14 : List Nat := words! "gaivota galega galho galinha galocha ganhar garagem garfo gargalo garimpo garoupa garrafa gasoduto gasto gata
  gatilho gaveta gazela gelado geleia gelo gemada gemer gemido generoso gengiva genial genoma genro geologia
  gerador germinar gesso gestor ginasta gincana gingado girafa girino glacial glicose global glorioso goela
  goiaba golfe golpear gordura gorjeta gorro gostoso goteira governar gracejo gradual grafite gralha grampo
  granada gratuito graveto graxa grego grelhar"

/-- bip39/wordlists/portuguese.go:983-1046. -/
def w15 : List Nat := words! "greve grilo grisalho gritaria grosso grotesco grudado grunhido gruta guache guarani guaxinim guerrear guiar
  guincho guisado gula guloso guru habitar harmonia haste haver hectare herdar heresia hesitar hiato hibernar
  hidratar hiena hino hipismo hipnose hipoteca hoje holofote homem honesto honrado hormonal hospedar humorado
  iate ideia idoso ignorado igreja iguana ileso ilha iludido iluminar ilustrar imagem imediato imenso imersivo
  iminente imitador imortal impacto impedir implante"

/-- bip39/wordlists/portuguese.go:1047-1110. -/
def w16 : List Nat := words! "impor imprensa impune imunizar inalador inapto inativo incenso inchar incidir incluir incolor indeciso
  indireto indutor ineficaz inerente infantil infestar infinito inflamar informal infrator ingerir inibido
  inicial inimigo injetar inocente inodoro inovador inox inquieto inscrito inseto insistir inspetor instalar
  insulto intacto integral intimar intocado intriga invasor inverno invicto invocar iogurte iraniano ironizar
  irreal irritado isca isento isolado isqueiro italiano janeiro jangada janta jararaca jardim jarro"

/-- bip39/wordlists/portuguese.go:1111-1174. -/
def w17 : List Nat := words! "jasmim jato javali jazida jejum joaninha joelhada jogador joia jornal jorrar jovem juba judeu judoca juiz
  julgador julho jurado jurista juro justa labareda laboral lacre lactante ladrilho lagarta lagoa laje lamber
  lamentar laminar lampejo lanche lapidar lapso laranja lareira largura lasanha lastro lateral latido lavanda
  lavoura lavrador laxante lazer lealdade lebre legado legendar legista leigo leiloar leitura lembrete leme
  lenhador lentilha leoa lesma leste"

/-- bip39/wordlists/portuguese.go:1175-1238. -/
def w18 : List Nat := words! "letivo letreiro levar leveza levitar liberal libido liderar ligar ligeiro limitar limoeiro limpador linda
  linear linhagem liquidez listagem lisura litoral livro lixa lixeira locador locutor lojista lombo lona longe
  lontra lorde lotado loteria loucura lousa louvar luar lucidez lucro luneta lustre lutador luva macaco macete
  machado macio madeira madrinha magnata magreza maior mais malandro malha malote maluco mamilo mamoeiro mamute
  manada mancha mandato manequim"

/-- bip39/wordlists/portuguese.go:1239-1302. -/
def w19 : List Nat := words! "manhoso manivela manobrar mansa manter manusear mapeado maquinar marcador maresia marfim margem marinho
  marmita maroto marquise marreco martelo marujo mascote masmorra massagem mastigar matagal materno matinal
  matutar maxilar medalha medida medusa megafone meiga melancia melhor membro memorial menino menos mensagem
  mental merecer mergulho mesada mesclar mesmo mesquita mestre metade meteoro metragem mexer mexicano micro
  migalha migrar milagre milenar milhar mimado minerar minhoca ministro minoria"

/-- bip39/wordlists/portuguese.go:1303-1366. -/
def w20 : List Nat := words! "miolo mirante mirtilo misturar mocidade moderno modular moeda moer moinho moita moldura moleza molho molinete
  molusco montanha moqueca morango morcego mordomo morena mosaico mosquete mostarda motel motim moto motriz muda
  muito mulata mulher multar mundial munido muralha murcho muscular museu musical nacional nadador naja namoro
  narina narrado nascer nativa natureza navalha navegar navio neblina nebuloso negativa negociar negrito nervoso
  neta neural nevasca nevoeiro ninar"

/-- bip39/wordlists/portuguese.go:1367-1430. -/
def w21 : List Nat := words! "ninho nitidez nivelar nobreza noite noiva nomear nominal nordeste nortear notar noticiar noturno novelo
  novilho novo nublado nudez numeral nupcial nutrir nuvem obcecado obedecer objetivo obrigado obscuro obstetra
  obter obturar ocidente ocioso ocorrer oculista ocupado ofegante ofensiva oferenda oficina ofuscado ogiva
  olaria oleoso olhar oliveira ombro omelete omisso omitir ondulado oneroso ontem opcional operador oponente
  oportuno oposto orar orbitar ordem ordinal orfanato orgasmo orgulho"

/-- bip39/wordlists/portuguese.go:1431-1494. -/
def w22 : List Nat := words! "oriental origem oriundo orla ortodoxo orvalho oscilar ossada osso ostentar otimismo ousadia outono outubro
  ouvido ovelha ovular oxidar oxigenar pacato paciente pacote pactuar padaria padrinho pagar pagode painel
  pairar paisagem palavra palestra palheta palito palmada palpitar pancada panela panfleto panqueca pantanal
  papagaio papelada papiro parafina parcial pardal parede partida pasmo passado pastel patamar patente patinar
  patrono paulada pausar peculiar pedalar pedestre pediatra pedra pegada"

/-- bip39/wordlists/portuguese.go:1495-1558. -/
def w23 : List Nat := words! "peitoral peixe pele pelicano penca pendurar peneira penhasco pensador pente perceber perfeito pergunta perito
  permitir perna perplexo persiana pertence peruca pescado pesquisa pessoa petiscar piada picado piedade
  pigmento pilastra pilhado pilotar pimenta pincel pinguim pinha pinote pintar pioneiro pipoca piquete piranha
  pires pirueta piscar pistola pitanga pivete planta plaqueta platina plebeu plumagem pluvial pneu poda poeira
  poetisa polegada policiar poluente polvilho pomar pomba ponderar"

/-- bip39/wordlists/portuguese.go:1559-1622. -/
def w24 : List Nat := words! "pontaria populoso porta possuir postal pote poupar pouso povoar praia prancha prato praxe prece predador
  prefeito premiar prensar preparar presilha pretexto prevenir prezar primata princesa prisma privado processo
  produto profeta proibido projeto prometer propagar prosa protetor provador publicar pudim pular pulmonar
  pulseira punhal punir pupilo pureza puxador quadra quantia quarto quase quebrar queda queijo quente querido
  quimono quina quiosque rabanada rabisco rachar racionar radial"

/-- bip39/wordlists/portuguese.go:1623-1686. -/
def w25 : List Nat := words! "raiar rainha raio raiva rajada ralado ramal ranger ranhura rapadura rapel rapidez raposa raquete raridade
  rasante rascunho rasgar raspador rasteira rasurar ratazana ratoeira realeza reanimar reaver rebaixar rebelde
  rebolar recado recente recheio recibo recordar recrutar recuar rede redimir redonda reduzida reenvio refinar
  refletir refogar refresco refugiar regalia regime regra reinado reitor rejeitar relativo remador remendo
  remorso renovado reparo repelir repleto repolho represa repudiar requerer"

/-- bip39/wordlists/portuguese.go:1687-1750. -/
def w26 : List Nat := words! "resenha resfriar resgatar residir resolver respeito ressaca restante resumir retalho reter retirar retomada
  retratar revelar revisor revolta riacho rica rigidez rigoroso rimar ringue risada risco risonho robalo rochedo
  rodada rodeio rodovia roedor roleta romano roncar rosado roseira rosto rota roteiro rotina rotular rouco roupa
  roxo rubro rugido rugoso ruivo rumo rupestre russo sabor saciar sacola sacudir sadio safira saga sagrada
  saibro salada saleiro salgado"

/-- bip39/wordlists/portuguese.go:1751-1814. -/
def w27 : List Nat := words! "saliva salpicar salsicha saltar salvador sambar samurai sanar sanfona sangue sanidade sapato sarda sargento
  sarjeta saturar saudade saxofone sazonal secar secular seda sedento sediado sedoso sedutor segmento segredo
  segundo seiva seleto selvagem semanal semente senador senhor sensual sentado separado sereia seringa serra
  servo setembro setor sigilo silhueta silicone simetria simpatia simular sinal sincero singular sinopse
  sintonia sirene siri situado soberano sobra socorro sogro soja"

/-- bip39/wordlists/portuguese.go:1815-1878. -/
def w28 : List Nat := words! "solda soletrar solteiro sombrio sonata sondar sonegar sonhador sono soprano soquete sorrir sorteio sossego
  sotaque soterrar sovado sozinho suavizar subida submerso subsolo subtrair sucata sucesso suco sudeste sufixo
  sugador sugerir sujeito sulfato sumir suor superior suplicar suposto suprimir surdina surfista surpresa
  surreal surtir suspiro sustento tabela tablete tabuada tacho tagarela talher talo talvez tamanho tamborim
  tampa tangente tanto tapar tapioca tardio tarefa tarja tarraxa"

/-- bip39/wordlists/portuguese.go:1879-1942. -/
def w29 : List Nat := words! "tatuagem taurino taxativo taxista teatral tecer tecido teclado tedioso teia teimar telefone telhado tempero
  tenente tensor tentar termal terno terreno tese tesoura testado teto textura texugo tiara tigela tijolo
  timbrar timidez tingido tinteiro tiragem titular toalha tocha tolerar tolice tomada tomilho tonel tontura
  topete tora torcido torneio torque torrada torto tostar touca toupeira toxina trabalho tracejar tradutor
  trafegar trajeto trama trancar trapo traseiro tratador"

/-- bip39/wordlists/portuguese.go:1943-2006. -/
def w30 : List Nat := words! "travar treino tremer trepidar trevo triagem tribo triciclo tridente trilogia trindade triplo triturar triunfal
  trocar trombeta trova trunfo truque tubular tucano tudo tulipa tupi turbo turma turquesa tutelar tutorial
  uivar umbigo unha unidade uniforme urologia urso urtiga urubu usado usina usufruir vacina vadiar vagaroso
  vaidoso vala valente validade valores vantagem vaqueiro varanda vareta varrer vascular vasilha vassoura vazar
  vazio veado vedar vegetar veicular veleiro"

/-- bip39/wordlists/portuguese.go:2007-2070. -/
def w31 : List Nat := words! "velhice veludo vencedor vendaval venerar ventre verbal verdade vereador vergonha vermelho verniz versar
  vertente vespa vestido vetorial viaduto viagem viajar viatura vibrador videira vidraria viela viga vigente
  vigiar vigorar vilarejo vinco vinheta vinil violeta virada virtude visitar visto vitral viveiro vizinho voador
  voar vogal volante voleibol voltagem volumoso vontade vulto vuvuzela xadrez xarope xeque xeretar xerife xingar
  zangado zarpar zebu zelador zombar zoologia zumbido"

/-- The whole list. -/
def codes : List Nat :=
  w0 ++ (w1 ++ (w2 ++ (w3 ++ (w4 ++ (w5 ++ (w6 ++ (w7 ++ (w8 ++ (w9 ++ (w10 ++ (w11 ++ (w12 ++ (w13 ++ (w14 ++ (w15 ++ (w16 ++ (w17 ++ (w18 ++ (w19 ++ (w20 ++ (w21 ++ (w22 ++ (w23 ++ (w24 ++ (w25 ++ (w26 ++ (w27 ++ (w28 ++ (w29 ++ (w30 ++ (w31)))))))))))))))))))))))))))))))

set_option maxRecDepth 100000

theorem crc0 : crcCodes w0 0xffffffff = 0x80e78798 := by decide +kernel
theorem crc1 : crcCodes w1 0x80e78798 = 0x4e8311d5 := by decide +kernel
theorem crc2 : crcCodes w2 0x4e8311d5 = 0x6558e46c := by decide +kernel
theorem crc3 : crcCodes w3 0x6558e46c = 0xa1f7a951 := by decide +kernel
theorem crc4 : crcCodes w4 0xa1f7a951 = 0xf74ec5ce := by decide +kernel
theorem crc5 : crcCodes w5 0xf74ec5ce = 0x8486d1f7 := by decide +kernel
theorem crc6 : crcCodes w6 0x8486d1f7 = 0x8395566d := by decide +kernel
theorem crc7 : crcCodes w7 0x8395566d = 0xe87bfcee := by decide +kernel
theorem crc8 : crcCodes w8 0xe87bfcee = 0x3503aa44 := by decide +kernel
theorem crc9 : crcCodes w9 0x3503aa44 = 0x9c93bc8e := by decide +kernel
theorem crc10 : crcCodes w10 0x9c93bc8e = 0xbb7766b8 := by decide +kernel
theorem crc11 : crcCodes w11 0xbb7766b8 = 0x250779be := by decide +kernel
theorem crc12 : crcCodes w12 0x250779be = 0x2e953f84 := by decide +kernel
theorem crc13 : crcCodes w13 0x2e953f84 = 0x4daee15c := by decide +kernel
theorem crc14 : crcCodes w14 0x4daee15c = 0xa0be9b85 := by decide +kernel
theorem crc15 : crcCodes w15 0xa0be9b85 = 0x613d57ec := by decide +kernel
theorem crc16 : crcCodes w16 0x613d57ec = 0xc42f50d := by decide +kernel
theorem crc17 : crcCodes w17 0xc42f50d = 0x1b014398 := by decide +kernel
theorem crc18 : crcCodes w18 0x1b014398 = 0xc5964fac := by decide +kernel
theorem crc19 : crcCodes w19 0xc5964fac = 0x159085ec := by decide +kernel
theorem crc20 : crcCodes w20 0x159085ec = 0x445411c7 := by decide +kernel
theorem crc21 : crcCodes w21 0x445411c7 = 0xbfc000b3 := by decide +kernel
theorem crc22 : crcCodes w22 0xbfc000b3 = 0x427af3d7 := by decide +kernel
theorem crc23 : crcCodes w23 0x427af3d7 = 0xa68eeaeb := by decide +kernel
theorem crc24 : crcCodes w24 0xa68eeaeb = 0xa00950c5 := by decide +kernel
theorem crc25 : crcCodes w25 0xa00950c5 = 0x7084260a := by decide +kernel
theorem crc26 : crcCodes w26 0x7084260a = 0xef913b24 := by decide +kernel
theorem crc27 : crcCodes w27 0xef913b24 = 0xc26a8fbf := by decide +kernel
theorem crc28 : crcCodes w28 0xc26a8fbf = 0x9e56f1fe := by decide +kernel
theorem crc29 : crcCodes w29 0x9e56f1fe = 0x57cf8b37 := by decide +kernel
theorem crc30 : crcCodes w30 0x57cf8b37 = 0x4623c8ca := by decide +kernel
theorem crc31 : crcCodes w31 0x4623c8ca = 0x19d85ab9 := by decide +kernel

theorem crc : crcCodes codes 0xffffffff = 0x19d85ab9 := by
  unfold codes
  rw [crcCodes_append, crc0,
    crcCodes_append, crc1,
    crcCodes_append, crc2,
    crcCodes_append, crc3,
    crcCodes_append, crc4,
    crcCodes_append, crc5,
    crcCodes_append, crc6,
    crcCodes_append, crc7,
    crcCodes_append, crc8,
    crcCodes_append, crc9,
    crcCodes_append, crc10,
    crcCodes_append, crc11,
    crcCodes_append, crc12,
    crcCodes_append, crc13,
    crcCodes_append, crc14,
    crcCodes_append, crc15,
    crcCodes_append, crc16,
    crcCodes_append, crc17,
    crcCodes_append, crc18,
    crcCodes_append, crc19,
    crcCodes_append, crc20,
    crcCodes_append, crc21,
    crcCodes_append, crc22,
    crcCodes_append, crc23,
    crcCodes_append, crc24,
    crcCodes_append, crc25,
    crcCodes_append, crc26,
    crcCodes_append, crc27,
    crcCodes_append, crc28,
    crcCodes_append, crc29,
    crcCodes_append, crc30, crc31]

theorem length : codes.length = 2048 := by decide +kernel

theorem distinct : distinct codes = true := by decide +kernel

theorem good : codes.all goodCode = true := by decide +kernel

end Bips.Data.Portuguese
