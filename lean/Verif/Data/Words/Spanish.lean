import Verif.Data.Words.Check

/-!
# bip39/wordlists/spanish.go:23-2071

Generated by tools/gen_words.py: the words of the text `spanish`, which has one word per line. The CRC-32 of the text,
proved here, is the constant of the file's `init`.
-/

namespace Bips.Data.Spanish

/-- bip39/wordlists/spanish.go:23-86. -/
def w0 : List Nat := words! "ábaco abdomen abeja abierto abogado abono aborto abrazo abrir abuelo abuso acabar academia acceso acción
  aceite acelga acento aceptar ácido aclarar acné acoger acoso activo acto actriz actuar acudir acuerdo acusar
  adicto admitir adoptar adorno aduana adulto aéreo afectar afición afinar afirmar ágil agitar agonía agosto
  agotar agregar agrio agua agudo águila aguja ahogo ahorro aire aislar ajedrez ajeno ajuste alacrán alambre
  alarma alba"

/-- bip39/wordlists/spanish.go:87-150. -/
def w1 : List Nat := words! "álbum alcalde aldea alegre alejar alerta aleta alfiler alga algodón aliado aliento alivio alma almeja
  almíbar altar alteza altivo alto altura alumno alzar amable amante amapola amargo amasar ámbar ámbito ameno
  amigo amistad amor amparo amplio ancho anciano ancla andar andén anemia ángulo anillo ánimo anís anotar
  antena antiguo antojo anual anular anuncio añadir añejo año apagar aparato apetito apio aplicar apodo
  aporte apoyo"

/-- bip39/wordlists/spanish.go:151-214. -/
def w2 : List Nat := words! "aprender aprobar apuesta apuro arado araña arar árbitro árbol arbusto archivo arco arder ardilla arduo
  área árido aries armonía arnés aroma arpa arpón arreglo arroz arruga arte artista asa asado asalto
  ascenso asegurar aseo asesor asiento asilo asistir asno asombro áspero astilla astro astuto asumir asunto
  atajo ataque atar atento ateo ático atleta átomo atraer atroz atún audaz audio auge aula aumento ausente
  autor"

/-- bip39/wordlists/spanish.go:215-278. -/
def w3 : List Nat := words! "aval avance avaro ave avellana avena avestruz avión aviso ayer ayuda ayuno azafrán azar azote azúcar azufre
  azul baba babor bache bahía baile bajar balanza balcón balde bambú banco banda baño barba barco barniz
  barro báscula bastón basura batalla batería batir batuta baúl bazar bebé bebida bello besar beso bestia
  bicho bien bingo blanco bloque blusa boa bobina bobo boca bocina boda bodega boina"

/-- bip39/wordlists/spanish.go:279-342. -/
def w4 : List Nat := words! "bola bolero bolsa bomba bondad bonito bono bonsái borde borrar bosque bote botín bóveda bozal bravo brazo
  brecha breve brillo brinco brisa broca broma bronce brote bruja brusco bruto buceo bucle bueno buey bufanda
  bufón búho buitre bulto burbuja burla burro buscar butaca buzón caballo cabeza cabina cabra cacao cadáver
  cadena caer café caída caimán caja cajón cal calamar calcio caldo calidad calle calma"

/-- bip39/wordlists/spanish.go:343-406. -/
def w5 : List Nat := words! "calor calvo cama cambio camello camino campo cáncer candil canela canguro canica canto caña cañón caoba
  caos capaz capitán capote captar capucha cara carbón cárcel careta carga cariño carne carpeta carro carta
  casa casco casero caspa castor catorce catre caudal causa cazo cebolla ceder cedro celda célebre celoso
  célula cemento ceniza centro cerca cerdo cereza cero cerrar certeza césped cetro chacal chaleco champú
  chancla"

/-- bip39/wordlists/spanish.go:407-470. -/
def w6 : List Nat := words! "chapa charla chico chiste chivo choque choza chuleta chupar ciclón ciego cielo cien cierto cifra cigarro cima
  cinco cine cinta ciprés circo ciruela cisne cita ciudad clamor clan claro clase clave cliente clima clínica
  cobre cocción cochino cocina coco código codo cofre coger cohete cojín cojo cola colcha colegio colgar
  colina collar colmo columna combate comer comida cómodo compra conde conejo conga conocer consejo"

/-- bip39/wordlists/spanish.go:471-534. -/
def w7 : List Nat := words! "contar copa copia corazón corbata corcho cordón corona correr coser cosmos costa cráneo cráter crear
  crecer creído crema cría crimen cripta crisis cromo crónica croqueta crudo cruz cuadro cuarto cuatro cubo
  cubrir cuchara cuello cuento cuerda cuesta cueva cuidar culebra culpa culto cumbre cumplir cuna cuneta cuota
  cupón cúpula curar curioso curso curva cutis dama danza dar dardo dátil deber débil década decir dedo"

/-- bip39/wordlists/spanish.go:535-598. -/
def w8 : List Nat := words! "defensa definir dejar delfín delgado delito demora denso dental deporte derecho derrota desayuno deseo
  desfile desnudo destino desvío detalle detener deuda día diablo diadema diamante diana diario dibujo dictar
  diente dieta diez difícil digno dilema diluir dinero directo dirigir disco diseño disfraz diva divino doble
  doce dolor domingo don donar dorado dormir dorso dos dosis dragón droga ducha duda duelo dueño dulce dúo
  duque"

/-- bip39/wordlists/spanish.go:599-662. -/
def w9 : List Nat := words! "durar dureza duro ébano ebrio echar eco ecuador edad edición edificio editor educar efecto eficaz eje
  ejemplo elefante elegir elemento elevar elipse élite elixir elogio eludir embudo emitir emoción empate
  empeño empleo empresa enano encargo enchufe encía enemigo enero enfado enfermo engaño enigma enlace enorme
  enredo ensayo enseñar entero entrar envase envío época equipo erizo escala escena escolar escribir escudo
  esencia esfera esfuerzo espada"

/-- bip39/wordlists/spanish.go:663-726. -/
def w10 : List Nat := words! "espejo espía esposa espuma esquí estar este estilo estufa etapa eterno ética etnia evadir evaluar evento
  evitar exacto examen exceso excusa exento exigir exilio existir éxito experto explicar exponer extremo
  fábrica fábula fachada fácil factor faena faja falda fallo falso faltar fama familia famoso faraón
  farmacia farol farsa fase fatiga fauna favor fax febrero fecha feliz feo feria feroz fértil fervor festín
  fiable fianza"

/-- bip39/wordlists/spanish.go:727-790. -/
def w11 : List Nat := words! "fiar fibra ficción ficha fideo fiebre fiel fiera fiesta figura fijar fijo fila filete filial filtro fin finca
  fingir finito firma flaco flauta flecha flor flota fluir flujo flúor fobia foca fogata fogón folio folleto
  fondo forma forro fortuna forzar fosa foto fracaso frágil franja frase fraude freír freno fresa frío frito
  fruta fuego fuente fuerza fuga fumar función funda furgón furia fusil fútbol"

/-- bip39/wordlists/spanish.go:791-854. -/
def w12 : List Nat := words! "futuro gacela gafas gaita gajo gala galería gallo gamba ganar gancho ganga ganso garaje garza gasolina gastar
  gato gavilán gemelo gemir gen género genio gente geranio gerente germen gesto gigante gimnasio girar giro
  glaciar globo gloria gol golfo goloso golpe goma gordo gorila gorra gota goteo gozar grada gráfico grano
  grasa gratis grave grieta grillo gripe gris grito grosor grúa grueso grumo grupo guante"

/-- bip39/wordlists/spanish.go:855-918. -/
def w13 : List Nat := words! "guapo guardia guerra guía guiño guion guiso guitarra gusano gustar haber hábil hablar hacer hacha hada
  hallar hamaca harina haz hazaña hebilla hebra hecho helado helio hembra herir hermano héroe hervir hielo
  hierro hígado higiene hijo himno historia hocico hogar hoguera hoja hombre hongo honor honra hora hormiga
  horno hostil hoyo hueco huelga huerta hueso huevo huida huir humano húmedo humilde humo hundir huracán"

/-- bip39/wordlists/spanish.go:919-982. -/
def w14 : List Nat := words! "hurto icono ideal idioma ídolo iglesia iglú igual ilegal ilusión imagen imán imitar impar imperio imponer
  impulso incapaz índice inerte infiel informe ingenio inicio inmenso inmune innato insecto instante interés
  íntimo intuir inútil invierno ira iris ironía isla islote jabalí jabón jamón jarabe jardín jarra jaula
  jazmín jefe jeringa jinete jornada joroba joven joya juerga jueves juez jugador jugo juguete juicio junco
  jungla junio"

/-- bip39/wordlists/spanish.go:983-1046. -/
def w15 : List Nat := words! "juntar júpiter jurar justo juvenil juzgar kilo koala labio lacio lacra lado ladrón lagarto lágrima laguna
  laico lamer lámina lámpara lana lancha langosta lanza lápiz largo larva lástima lata látex latir laurel
  lavar lazo leal lección leche lector leer legión legumbre lejano lengua lento leña león leopardo lesión
  letal letra leve leyenda libertad libro licor líder lidiar lienzo liga ligero lima límite limón limpio"

/-- bip39/wordlists/spanish.go:1047-1110. -/
def w16 : List Nat := words! "lince lindo línea lingote lino linterna líquido liso lista litera litio litro llaga llama llanto llave
  llegar llenar llevar llorar llover lluvia lobo loción loco locura lógica logro lombriz lomo lonja lote lucha
  lucir lugar lujo luna lunes lupa lustro luto luz maceta macho madera madre maduro maestro mafia magia mago
  maíz maldad maleta malla malo mamá mambo mamut manco mando manejar manga maniquí"

/-- bip39/wordlists/spanish.go:1111-1174. -/
def w17 : List Nat := words! "manjar mano manso manta mañana mapa máquina mar marco marea marfil margen marido mármol marrón martes
  marzo masa máscara masivo matar materia matiz matriz máximo mayor mazorca mecha medalla medio médula
  mejilla mejor melena melón memoria menor mensaje mente menú mercado merengue mérito mes mesón meta meter
  método metro mezcla miedo miel miembro miga mil milagro militar millón mimo mina minero mínimo minuto miope"

/-- bip39/wordlists/spanish.go:1175-1238. -/
def w18 : List Nat := words! "mirar misa miseria misil mismo mitad mito mochila moción moda modelo moho mojar molde moler molino momento
  momia monarca moneda monja monto moño morada morder moreno morir morro morsa mortal mosca mostrar motivo
  mover móvil mozo mucho mudar mueble muela muerte muestra mugre mujer mula muleta multa mundo muñeca mural
  muro músculo museo musgo música muslo nácar nación nadar naipe naranja nariz narrar nasal"

/-- bip39/wordlists/spanish.go:1239-1302. -/
def w19 : List Nat := words! "natal nativo natural náusea naval nave navidad necio néctar negar negocio negro neón nervio neto neutro
  nevar nevera nicho nido niebla nieto niñez niño nítido nivel nobleza noche nómina noria norma norte nota
  noticia novato novela novio nube nuca núcleo nudillo nudo nuera nueve nuez nulo número nutria oasis obeso
  obispo objeto obra obrero observar obtener obvio oca ocaso océano ochenta ocho ocio ocre"

/-- bip39/wordlists/spanish.go:1303-1366. -/
def w20 : List Nat := words! "octavo octubre oculto ocupar ocurrir odiar odio odisea oeste ofensa oferta oficio ofrecer ogro oído oír ojo
  ola oleada olfato olivo olla olmo olor olvido ombligo onda onza opaco opción ópera opinar oponer optar
  óptica opuesto oración orador oral órbita orca orden oreja órgano orgía orgullo oriente origen orilla oro
  orquesta oruga osadía oscuro osezno oso ostra otoño otro oveja óvulo óxido oxígeno oyente"

/-- bip39/wordlists/spanish.go:1367-1430. -/
def w21 : List Nat := words! "ozono pacto padre paella página pago país pájaro palabra palco paleta pálido palma paloma palpar pan panal
  pánico pantera pañuelo papá papel papilla paquete parar parcela pared parir paro párpado parque párrafo
  parte pasar paseo pasión paso pasta pata patio patria pausa pauta pavo payaso peatón pecado pecera pecho
  pedal pedir pegar peine pelar peldaño pelea peligro pellejo pelo peluca pena pensar peñón peón"

/-- bip39/wordlists/spanish.go:1431-1494. -/
def w22 : List Nat := words! "peor pepino pequeño pera percha perder pereza perfil perico perla permiso perro persona pesa pesca pésimo
  pestaña pétalo petróleo pez pezuña picar pichón pie piedra pierna pieza pijama pilar piloto pimienta pino
  pintor pinza piña piojo pipa pirata pisar piscina piso pista pitón pizca placa plan plata playa plaza pleito
  pleno plomo pluma plural pobre poco poder podio poema poesía poeta polen policía pollo"

/-- bip39/wordlists/spanish.go:1495-1558. -/
def w23 : List Nat := words! "polvo pomada pomelo pomo pompa poner porción portal posada poseer posible poste potencia potro pozo prado
  precoz pregunta premio prensa preso previo primo príncipe prisión privar proa probar proceso producto proeza
  profesor programa prole promesa pronto propio próximo prueba público puchero pudor pueblo puerta puesto
  pulga pulir pulmón pulpo pulso puma punto puñal puño pupa pupila puré quedar queja quemar querer queso
  quieto química"

/-- bip39/wordlists/spanish.go:1559-1622. -/
def w24 : List Nat := words! "quince quitar rábano rabia rabo ración radical raíz rama rampa rancho rango rapaz rápido rapto rasgo raspa
  rato rayo raza razón reacción realidad rebaño rebote recaer receta rechazo recoger recreo recto recurso red
  redondo reducir reflejo reforma refrán refugio regalo regir regla regreso rehén reino reír reja relato
  relevo relieve relleno reloj remar remedio remo rencor rendir renta reparto repetir reposo reptil res rescate"

/-- bip39/wordlists/spanish.go:1623-1686. -/
def w25 : List Nat := words! "resina respeto resto resumen retiro retorno retrato reunir revés revista rey rezar rico riego rienda riesgo
  rifa rígido rigor rincón riñón río riqueza risa ritmo rito rizo roble roce rociar rodar rodeo rodilla
  roer rojizo rojo romero romper ron ronco ronda ropa ropero rosa rosca rostro rotar rubí rubor rudo rueda
  rugir ruido ruina ruleta rulo rumbo rumor ruptura ruta rutina sábado saber sabio"

/-- bip39/wordlists/spanish.go:1687-1750. -/
def w26 : List Nat := words! "sable sacar sagaz sagrado sala saldo salero salir salmón salón salsa salto salud salvar samba sanción
  sandía sanear sangre sanidad sano santo sapo saque sardina sartén sastre satán sauna saxofón sección seco
  secreto secta sed seguir seis sello selva semana semilla senda sensor señal señor separar sepia sequía ser
  serie sermón servir sesenta sesión seta setenta severo sexo sexto sidra siesta siete siglo signo"

/-- bip39/wordlists/spanish.go:1751-1814. -/
def w27 : List Nat := words! "sílaba silbar silencio silla símbolo simio sirena sistema sitio situar sobre socio sodio sol solapa soldado
  soledad sólido soltar solución sombra sondeo sonido sonoro sonrisa sopa soplar soporte sordo sorpresa sorteo
  sostén sótano suave subir suceso sudor suegra suelo sueño suerte sufrir sujeto sultán sumar superar suplir
  suponer supremo sur surco sureño surgir susto sutil tabaco tabique tabla tabú taco tacto tajo talar talco"

/-- bip39/wordlists/spanish.go:1815-1878. -/
def w28 : List Nat := words! "talento talla talón tamaño tambor tango tanque tapa tapete tapia tapón taquilla tarde tarea tarifa tarjeta
  tarot tarro tarta tatuaje tauro taza tazón teatro techo tecla técnica tejado tejer tejido tela teléfono
  tema temor templo tenaz tender tener tenis tenso teoría terapia terco término ternura terror tesis tesoro
  testigo tetera texto tez tibio tiburón tiempo tienda tierra tieso tigre tijera tilde timbre tímido timo"

/-- bip39/wordlists/spanish.go:1879-1942. -/
def w29 : List Nat := words! "tinta tío típico tipo tira tirón titán títere título tiza toalla tobillo tocar tocino todo toga toldo
  tomar tono tonto topar tope toque tórax torero tormenta torneo toro torpedo torre torso tortuga tos tosco
  toser tóxico trabajo tractor traer tráfico trago traje tramo trance trato trauma trazar trébol tregua
  treinta tren trepar tres tribu trigo tripa triste triunfo trofeo trompa tronco tropa trote trozo"

/-- bip39/wordlists/spanish.go:1943-2006. -/
def w30 : List Nat := words! "truco trueno trufa tubería tubo tuerto tumba tumor túnel túnica turbina turismo turno tutor ubicar úlcera
  umbral unidad unir universo uno untar uña urbano urbe urgente urna usar usuario útil utopía uva vaca vacío
  vacuna vagar vago vaina vajilla vale válido valle valor válvula vampiro vara variar varón vaso vecino
  vector vehículo veinte vejez vela velero veloz vena vencer venda veneno vengar venir venta"

/-- bip39/wordlists/spanish.go:2007-2070. -/
def w31 : List Nat := words! "venus ver verano verbo verde vereda verja verso verter vía viaje vibrar vicio víctima vida vídeo vidrio
  viejo viernes vigor vil villa vinagre vino viñedo violín viral virgo virtud visor víspera vista vitamina
  viudo vivaz vivero vivir vivo volcán volumen volver voraz votar voto voz vuelo vulgar yacer yate yegua yema
  yerno yeso yodo yoga yogur zafiro zanja zapato zarza zona zorro zumo zurdo"

/-- The whole list. -/
def codes : List Nat :=
  w0 ++ (w1 ++ (w2 ++ (w3 ++ (w4 ++ (w5 ++ (w6 ++ (w7 ++ (w8 ++ (w9 ++ (w10 ++ (w11 ++ (w12 ++ (w13 ++ (w14 ++ (w15 ++ (w16 ++ (w17 ++ (w18 ++ (w19 ++ (w20 ++ (w21 ++ (w22 ++ (w23 ++ (w24 ++ (w25 ++ (w26 ++ (w27 ++ (w28 ++ (w29 ++ (w30 ++ (w31)))))))))))))))))))))))))))))))

set_option maxRecDepth 100000

theorem crc0 : crcCodes w0 0xffffffff = 0xd68c442e := by decide +kernel
theorem crc1 : crcCodes w1 0xd68c442e = 0x8a033b25 := by decide +kernel
theorem crc2 : crcCodes w2 0x8a033b25 = 0xa3711939 := by decide +kernel
theorem crc3 : crcCodes w3 0xa3711939 = 0xc24a1cc3 := by decide +kernel
theorem crc4 : crcCodes w4 0xc24a1cc3 = 0x8942c37b := by decide +kernel
theorem crc5 : crcCodes w5 0x8942c37b = 0xcd633301 := by decide +kernel
theorem crc6 : crcCodes w6 0xcd633301 = 0xefc704b0 := by decide +kernel
theorem crc7 : crcCodes w7 0xefc704b0 = 0x17f47a5d := by decide +kernel
theorem crc8 : crcCodes w8 0x17f47a5d = 0x3eca43fe := by decide +kernel
theorem crc9 : crcCodes w9 0x3eca43fe = 0x3d4b59c7 := by decide +kernel
theorem crc10 : crcCodes w10 0x3d4b59c7 = 0x1ac138c9 := by decide +kernel
theorem crc11 : crcCodes w11 0x1ac138c9 = 0x866d885f := by decide +kernel
theorem crc12 : crcCodes w12 0x866d885f = 0x18f20904 := by decide +kernel
theorem crc13 : crcCodes w13 0x18f20904 = 0xf050053d := by decide +kernel
theorem crc14 : crcCodes w14 0xf050053d = 0x39f6a59a := by decide +kernel
theorem crc15 : crcCodes w15 0x39f6a59a = 0x6933f7bb := by decide +kernel
theorem crc16 : crcCodes w16 0x6933f7bb = 0xe996ad8d := by decide +kernel
theorem crc17 : crcCodes w17 0xe996ad8d = 0x585a80c7 := by decide +kernel
theorem crc18 : crcCodes w18 0x585a80c7 = 0x7ab5c8ee := by decide +kernel
theorem crc19 : crcCodes w19 0x7ab5c8ee = 0x688c13fb := by decide +kernel
theorem crc20 : crcCodes w20 0x688c13fb = 0x54113f6c := by decide +kernel
theorem crc21 : crcCodes w21 0x54113f6c = 0x2138bb2b := by decide +kernel
theorem crc22 : crcCodes w22 0x2138bb2b = 0xc5271d45 := by decide +kernel
theorem crc23 : crcCodes w23 0xc5271d45 = 0xddcf2b86 := by decide +kernel
theorem crc24 : crcCodes w24 0xddcf2b86 = 0x19fa82b4 := by decide +kernel
theorem crc25 : crcCodes w25 0x19fa82b4 = 0x74f852cd := by decide +kernel
theorem crc26 : crcCodes w26 0x74f852cd = 0x90de4a2b := by decide +kernel
theorem crc27 : crcCodes w27 0x90de4a2b = 0x6dfec05 := by decide +kernel
theorem crc28 : crcCodes w28 0x6dfec05 = 0xfa71e0a3 := by decide +kernel
theorem crc29 : crcCodes w29 0xfa71e0a3 = 0x27bcfadc := by decide +kernel
theorem crc30 : crcCodes w30 0x27bcfadc = 0xb3a5975c := by decide +kernel
theorem crc31 : crcCodes w31 0xb3a5975c = 0xd991b0c2 := by decide +kernel

theorem crc : crcCodes codes 0xffffffff = 0xd991b0c2 := by
  unfold codes
  rw [crcCodes_append, crc0,
    crcCodes_append, crc1,
    crcCodes_append, crc2,
    crcCodes_append, crc3,
    crcCodes_append, crc4,
    crcCodes_append, crc5,
    crcCodes_append, crc6,
    crcCodes_append, crc7,
    crcCodes_append, crc8,
    crcCodes_append, crc9,
    crcCodes_append, crc10,
    crcCodes_append, crc11,
    crcCodes_append, crc12,
    crcCodes_append, crc13,
    crcCodes_append, crc14,
    crcCodes_append, crc15,
    crcCodes_append, crc16,
    crcCodes_append, crc17,
    crcCodes_append, crc18,
    crcCodes_append, crc19,
    crcCodes_append, crc20,
    crcCodes_append, crc21,
    crcCodes_append, crc22,
    crcCodes_append, crc23,
    crcCodes_append, crc24,
    crcCodes_append, crc25,
    crcCodes_append, crc26,
    crcCodes_append, crc27,
    crcCodes_append, crc28,
    crcCodes_append, crc29,
    crcCodes_append, crc30, crc31]

theorem length : codes.length = 2048 := by decide +kernel

theorem distinct : distinct codes = true := by decide +kernel

theorem good : codes.all goodCode = true := by decide +kernel

end Bips.Data.Spanish
