import Verif.Cameras.Lemmas

/-!
# Checks of the numbers in the camera files

Integer comparisons on the files' numbers, evaluated by the kernel.
-/

namespace Sorcha.Cameras
open Sorcha.Geom Sorcha.Geom.Spec

/-- `left` for whole numbers. -/
def leftZ (a b p : ℤ × ℤ) : ℤ := (b.1 - a.1) * (p.2 - a.2) - (b.2 - a.2) * (p.1 - a.1)

/-- Corner within the camera. -/
def cornerOk (a : ℤ × ℤ) : Bool :=
  decide (-310000000000000000 ≤ a.1) && decide (a.1 ≤ 310000000000000000) && decide (-310000000000000000 ≤ a.2) &&
    decide (a.2 ≤ 310000000000000000) && decide (a.1 * a.1 + a.2 * a.2 ≤ 358000000000000000 * 358000000000000000)

/-- Corners of one detector close to each other. -/
def closeOk (a b : ℤ × ℤ) : Bool :=
  decide (-60000000000000000 ≤ b.1 - a.1) && decide (b.1 - a.1 ≤ 60000000000000000) && decide (-60000000000000000 ≤ b.2 - a.2) &&
    decide (b.2 - a.2 ≤ 60000000000000000)

/-- All corners of a detector in order. -/
def detectorOk : List (ℤ × ℤ) → Bool
  | [a, b, c, d] => cornerOk a && cornerOk b && cornerOk c && cornerOk d && closeOk a b && closeOk a c && closeOk a d && closeOk b c &&
      closeOk b d && closeOk c d &&
      decide (1500000000000000000000000000000000 ≤ leftZ a b c) && decide (1500000000000000000000000000000000 ≤ leftZ b c d) &&
      decide (1500000000000000000000000000000000 ≤ leftZ c d a) && decide (1500000000000000000000000000000000 ≤ leftZ d a b)
  | _ => false

def boxes1 : List (ℤ × ℤ × ℤ × ℤ) := [
  (-183319149778724540, -144549995864540670, -306744015335768570, -267292699961917000),
  (-142432423190316060, -103661554209310700, -306748179193694900, -267303157521862200),
  (-101527588210555910, -62768386326808060, -306806249586274520, -267357886276863100),
  (-183371146806184730, -144598309909357550, -265836864744425100, -226375872436951240),
  (-142449873154147710, -103681437757070850, -265867248045451970, -226404158767574900),
  (-101492104587955450, -62730114772512680, -265956414629386770, -226487401219604250),
  (-183419984488996500, -144640176122619520, -224924000010107250, -185460067798280740),
  (-142516183290589140, -103746493751413880, -224940671250352660, -185466617790893100),
  (-101547940360210700, -62767048790323505, -225000245764867820, -185540513488191320),
  (-60254027709333300, -21484233547550940, -306804477308826040, -267378199566080600),
  (-19319920848809213, 19439470824933378, -306792149206472800, -267362762577263050),
  (21612906459204580, 60373721954134660, -306835757808582750, -267400639242594620),
  (-60305724198903630, -21521872910679330, -265914717694008680, -226467660893107200),
  (-19341159792803943, 19425466872445693, -265887788423294360, -226447089368149550),
  (21602778441313203, 60368243012556490, -265949793417962100, -226493232779022940),
  (-60349793988428440, -21570870252089866, -224987594046588900, -185532768472742580),
  (-19343327986077030, 19434284034389653, -224980684992905670, -185519443962676760),
  (21621937565446093, 60397436391255210, -224965120046236000, -185506911559538600),
  (62750554209367770, 101509164162744950, -306798868102558970, -267349924611990600),
  (103641527445791410, 142403594645773130, -306836899148834400, -267383278060004400),
  (144556750875949550, 183328228672617260, -306747149616867530, -267298116809442830),
  (62795008487398565, 101562027518855140, -265894211594696480, -226435433536555760),
  (103705466150120560, 142480446162727400, -265878725195597060, -226422063559301480),
  (144651871797914780, 183413707802674100, -265845485765472850, -226373694513735750),
  (62751946381640300, 101532369137686890, -224938266152642370, -185478055792439700),
  (103703459775033570, 142475909036876140, -224982640742204250, -185511309255764130),
  (144678386223281670, 183439659467209380, -224963319148808460, -185481194477984200)]

def boxes2 : List (ℤ × ℤ × ℤ × ℤ) := [
  (-306386517827197430, -267617237091625500, -183728990998506950, -144277153816368040),
  (-265499018776821880, -226733867062374820, -183711954959974500, -144243022441552130),
  (-224551837974114900, -185769719175814300, -183741637573370100, -144279794522699860),
  (-306398713039455760, -267645766985623380, -142744491924172700, -103281084740989280),
  (-265490058680681980, -226728476795858070, -142750967246003400, -103280606628637730),
  (-224557803986177650, -185792266613499600, -142772945195309070, -103294489429248660),
  (-306465338197185780, -267707953320618540, -101878654272757350, -62426377224306580),
  (-265566945365687700, -226800223210186360, -101811724505858380, -62352053038887585),
  (-224576777838702240, -185803553731051020, -101866950581636260, -62399253878510150),
  (-183378353059936100, -144599550513969610, -183801946851853380, -144330722672980260),
  (-142436899915265370, -103654801705568530, -183786609568182930, -144316024363741540),
  (-101501279051141660, -62728383376674220, -183859069128089430, -144379975994987880),
  (-183421941323961600, -144651478432604090, -142870950324652180, -103388797374026400),
  (-142493910173938200, -103710919749812300, -142817200432149200, -103342347540636370),
  (-101522156539940180, -62739550495960710, -142858698570246200, -103381954117434840),
  (-183461687077418130, -144691782432367910, -101849134543538620, -62367230047748745),
  (-142498870777298860, -103720818330288210, -101961080186444500, -62467913517884320),
  (-101551054773420560, -62765442341112110, -101916637092156850, -62438823034592006),
  (-60325569315385800, -21539304389979605, -183793916399083960, -144328014118748820),
  (-19417143379679740, 19361893548204404, -183839288212709860, -144371380096915900),
  (21533991345927550, 60311490121035220, -183844302818910700, -144374521245642250),
  (-60412038018914650, -21627551682480736, -142863908779237780, -103391002428132160),
  (-19455105864612274, 19326070284206706, -142832199477274140, -103359227345711690),
  (21558327954216500, 60340521824730620, -142880011356860560, -103404862607855070),
  (-60384243764698840, -21589639966625730, -101919445580236250, -62433544729925510),
  (-19442186494576278, 19341425672694090, -101860145977093930, -62381831477835380),
  (21525254566287203, 60317400285296975, -101877729564101360, -62384592257984680)]

def boxes3 : List (ℤ × ℤ × ℤ × ℤ) := [
  (62728809599536240, 101528866416373520, -183750498809090200, -144279141213770070),
  (103740023196012950, 142537222250564100, -183751983423047420, -144290447147434970),
  (144683226529089080, 183459536454640450, -183802622525535040, -144328958375086990),
  (62761399195694870, 101546650204623400, -142811665306176950, -103337512488746100),
  (103730095481274020, 142518291613873500, -142802924620995360, -103333187545912780),
  (144682113920906030, 183476429104100700, -142805103232264840, -103338657387919140),
  (62760455895045660, 101554158129063270, -101934854757594910, -62453116430399200),
  (103718182850404320, 142517826341843700, -101896508378870160, -62411131453112430),
  (144702649673743160, 183478550235348440, -101868030289891250, -62392018127574120),
  (185884880213743400, 224640608781920060, -183737601233471370, -144249852995360080),
  (226820437001112600, 265585493648427540, -183758438780784250, -144289436406205800),
  (267736318200058820, 306486542291900740, -183648781901348600, -144178255893303350),
  (185870022497512300, 224624271800113320, -142869074943961970, -103379548287213140),
  (226835681731952100, 265599721990080400, -142772993873405770, -103305083564783100),
  (267767505659441650, 306511157358696250, -142738066107997770, -103265574891976880),
  (185929156638656450, 224700225681158940, -101889574973881970, -62419795885549220),
  (226825658810965450, 265567648752698880, -101852799666706590, -62367519317861720),
  (267800727991465630, 306532828863592000, -101894983613263040, -62419140506359385),
  (-306444581482568600, -267711537332340520, -60622073231631620, -21148272002746407),
  (-265582287083383250, -226828519887739870, -60649672379937715, -21186471096281533),
  (-224623887352544370, -185858653830780520, -60747839113530520, -21259590404917060),
  (-306463600381494700, -267730318115086720, -19681786768782857, 19776021741120084),
  (-265600342802418470, -226852413960276600, -19771422195393810, 19694061219287283),
  (-224623029148489000, -185859816676587320, -19755719622582815, 19719079287316165),
  (-306470766657060200, -267722038608780680, 21227080205430244, 60682895060472080),
  (-265598463087746500, -226849118585969460, 21178886072332880, 60646424570479935),
  (-224632788796816430, -185863968780640670, 21201500446551406, 60670852879294600)]

def boxes4 : List (ℤ × ℤ × ℤ × ℤ) := [
  (-183432767796095730, -144656106436152150, -60686147746976575, -21211826687220032),
  (-142514355202158480, -103729575605479630, -60683272196981250, -21203462670302624),
  (-101547446885007640, -62755027396855760, -60660712135122590, -21173602253950095),
  (-183384767885062800, -144607427816496300, -19761992436615233, 19721967744993764),
  (-142484631734571250, -103710186705894720, -19717329964151390, 19761877662382680),
  (-101534695807131700, -62747600541204030, -19708350436592973, 19778928713714900),
  (-183451828442249350, -144683062796136200, 21211799155343280, 60690472758311270),
  (-142520560564729710, -103745477987532660, 21265105650425543, 60749857084457750),
  (-101561313910068630, -62776332923561430, 21187249035153010, 60676697100616910),
  (-60417530875652810, -21633842404781320, -60675729695877124, -21192035912397373),
  (-19454128935696656, 19341898460657231, -60754104731981050, -21260727934373134),
  (21555334948604086, 60344168499814384, -60739534886773160, -21250297737536670),
  (-60393301800054530, -21607143181766354, -19736123348256960, 19748665066616268),
  (-19440076578457468, 19348700233431325, -19715308066026400, 19771529062389600),
  (21511281586897490, 60296262443363970, -19704879873498880, 19778746596032960),
  (-60351910242989690, -21559283255621360, 21180040277317520, 60668193366114880),
  (-19384807103642679, 19400039784472910, 21204085266148330, 60685908487169340),
  (21562142763936506, 60353978598936680, 21204941413130573, 60697126930429540),
  (62764757339068180, 101545375554375400, -60700928408680560, -21217722103868764),
  (103705590681302360, 142488442464026990, -60715649380560880, -21237617765062290),
  (144693433999462750, 183464526099273370, -60699366245346660, -21222980118965670),
  (62815438836123290, 101599050434287000, -19749328720393413, 19734536585626310),
  (103730836115577770, 142507918751873780, -19756106189138156, 19723956742306596),
  (144656054653392930, 183427116633295900, -19710956967617970, 19766828121434940),
  (62806536432824350, 101590703339769360, 21195833168788816, 60676353587631450),
  (103699247865875000, 142480402177939530, 21216398138088712, 60694431574895730),
  (144654674498856560, 183421767200170400, 21237182061456072, 60720124397039650)]

def boxes5 : List (ℤ × ℤ × ℤ × ℤ) := [
  (185798379530326340, 224562602134900370, -60671365805782035, -21201602255104510),
  (226804564455131560, 265551913781891600, -60660142819402430, -21190619608016247),
  (267671537162551000, 306411373142581220, -60656350103244280, -21199659352657556),
  (185824165035948850, 224587750807755800, -19697437083144097, 19777706958718855),
  (226780185431134580, 265531954283193540, -19722893290306380, 19746371232662622),
  (267658645462813850, 306394515134974900, -19697549149016603, 19762796280335040),
  (185812352758582930, 224578272682569820, 21246690565668563, 60716047631745470),
  (226787871981029360, 265545207875726820, 21238084202270494, 60701276415627360),
  (267664076538167250, 306411279141960150, 21174133687336910, 60629963168751140),
  (-306405275591315060, -267676176111032070, 62364545316200455, 101843384309444600),
  (-265514185262035300, -226772004991667200, 62409610427297940, 101893427623789990),
  (-224580779673166780, -185823339890451330, 62397034368626710, 101887941126175380),
  (-306390205955708700, -267660704830727270, 103272085842201400, 142758526333517120),
  (-265515106736237440, -226759439562801040, 103323707291163080, 142799874710580500),
  (-224587014032032670, -185820532449080430, 103350312093282630, 142827835041188600),
  (-306381511513448240, -267638742537505100, 144183970721384560, 183661858024719600),
  (-265522931165456350, -226770197729046500, 144265843491537260, 183746967216371760),
  (-224575645590641550, -185825111356827630, 144285831355487340, 183778688020219370),
  (-183556795251789700, -144772426407765800, 62383311835208250, 101854074412226340),
  (-142616724764705140, -103824546451507030, 62463959657121850, 101941984532345020),
  (-101602533847681450, -62816134714225400, 62438449629360680, 101915488092961460),
  (-183491592665278630, -144711555623420530, 103323808460214250, 142796546897293540),
  (-142556710011314300, -103770804898970050, 103380753133080190, 142852734321383770),
  (-101557803747345300, -62775435916325690, 103421559986552390, 142898533010590210),
  (-183449655987108600, -144659387207390800, 144295194701882250, 183755148476986300),
  (-142573790899507440, -103791265584609880, 144310507575138910, 183780671309635020),
  (-101604250000207170, -62825576468962580, 144316232054860400, 183789297532834900)]

def boxes6 : List (ℤ × ℤ × ℤ × ℤ) := [
  (-60380874816929030, -21589291821331935, 62416800217629460, 101909394029575100),
  (-19355570627049578, 19440732900076700, 62438981412869790, 101930854114599350),
  (21531412087954314, 60321516557044750, 62442199816706810, 101923685406721810),
  (-60372338694987095, -21590518500450770, 103355843120705500, 142838327310834890),
  (-19450539338987075, 19340883330519409, 103417253497271770, 142901418231613730),
  (21573355552297704, 60367273943965185, 103366259044491790, 142846161334153780),
  (-60357805539250490, -21581419424316630, 144296734577498200, 183769791367063900),
  (-19436376492526470, 19352691825036028, 144288470763326640, 183766242794370960),
  (21546384132135983, 60324797914036750, 144303369446825550, 183772274867441760),
  (62783696593946070, 101580002063172730, 62369603796599150, 101853912692585320),
  (103710331231530950, 142493050970315620, 62388057358501920, 101864791000420980),
  (144741015743682200, 183517346686686880, 62441474011967600, 101917057727845540),
  (62753796730194840, 101548398269792460, 103371462368497190, 142846346337961680),
  (103695061832013770, 142474897135492550, 103412598812913390, 142890546675033700),
  (144662736763692180, 183450037243905400, 103368789867420780, 142834396248323340),
  (62749727929096440, 101548403615987670, 144298791618208320, 183768783976146660),
  (103726366453978890, 142522660055618110, 144283310812877620, 183743961511856140),
  (144651649660760500, 183428081341170040, 144349051782680480, 183822597472474700),
  (185834775489093900, 224599080202743070, 62386387648818200, 101862840585961140),
  (226815727130669740, 265563761786608840, 62343791594365670, 101821827708226450),
  (267685149228497380, 306429650165294660, 62348986686917160, 101812678431064100),
  (185846368279863900, 224607443100760100, 103357623286764540, 142840451697589710),
  (226843486323974200, 265596217743325760, 103341974976128830, 142821000637083990),
  (267728689525610040, 306462112880531750, 103290327448004560, 142772889471717400),
  (185874973871804700, 224634489859596100, 144278192837453520, 183762222909184540),
  (226792294034850100, 265555344722816850, 144241335789879170, 183712316958581260),
  (267717294185267700, 306467843551850240, 144228534766800580, 183698751298609460)]

def boxes7 : List (ℤ × ℤ × ℤ × ℤ) := [
  (-183366344720139360, -144597375414417860, 185480878275374900, 224955452642950950),
  (-142520723235839200, -103758465259484140, 185470174491150570, 224951738450108770),
  (-101571567086607090, -62802047444843030, 185520890290746080, 225000420919562900),
  (-183345359424171680, -144586833941977210, 226400073686112600, 265875104935983380),
  (-142465566493128140, -103690669471407840, 226472548421122780, 265929272900712260),
  (-101533891075783860, -62771900424994380, 226455044341154900, 265921788398614140),
  (-183354124648052970, -144587103449629050, 267341640729092000, 306795033888802500),
  (-142436933243476100, -103670409162105500, 267376253893403870, 306825509671847450),
  (-101516782558316170, -62749258521288440, 267342091190065980, 306782292767336860),
  (-60264702351704170, -21474939989309040, 185549439907310700, 225011099939866270),
  (-19320731653504543, 19451930892361085, 185555401042188800, 225009718227904450),
  (21580915268249825, 60356618324848840, 185508607947294600, 224980525014911730),
  (-60281951551397710, -21512538613807815, 226464514234840440, 265911660395004230),
  (-19318712031287542, 19447915538957066, 226440389620288300, 265882814306825100),
  (21554746179661710, 60328976091213580, 226476296580914000, 265918720355008100),
  (-60276256793798130, -21515578688868875, 267427770285777470, 306862977211205360),
  (-19309569345423267, 19449814444036427, 267404411991844920, 306833291007593750),
  (21625981813494110, 60384225698531130, 267328883892208600, 306772004431415080),
  (62703346446877220, 101478559546102630, 185479302156735770, 224944621065229430),
  (103712452136268640, 142485059453115150, 185501269323206830, 224972448554572100),
  (144629440411004180, 183418708974865400, 185470882670470580, 224925518319363420),
  (62668895992746210, 101445209025208560, 226497258952523300, 265946867414110500),
  (103650209100843090, 142420459137409420, 226396847160924800, 265858154965561980),
  (144549517177851340, 183335713704183660, 226407622852373040, 265855484636577170),
  (62673606275089290, 101445650531273670, 267393022192481850, 306828744727071430),
  (103607259483257540, 142391595981205460, 267385718372352630, 306817474096927920),
  (144552521880794950, 183334514621121820, 267344556497843620, 306783247431348280)]

/-- The boxes around the LSST detectors: smallest and largest `x`, smallest and largest `y`. -/
def boxes : List (ℤ × ℤ × ℤ × ℤ) := boxes1 ++ boxes2 ++ boxes3 ++ boxes4 ++ boxes5 ++ boxes6 ++ boxes7

/-- A corner in a box. -/
def inBox (b : ℤ × ℤ × ℤ × ℤ) (a : ℤ × ℤ) : Bool :=
  decide (b.1 ≤ a.1) && decide (a.1 ≤ b.2.1) && decide (b.2.2.1 ≤ a.2) && decide (a.2 ≤ b.2.2.2)

/-- Two boxes at least `1.3e-4` apart, in `x` or in `y`. -/
def apart (b c : ℤ × ℤ × ℤ × ℤ) : Bool :=
  decide (b.2.1 + 1300000000000000 ≤ c.1) || decide (c.2.1 + 1300000000000000 ≤ b.1) || decide (b.2.2.2 + 1300000000000000 ≤ c.2.2.1) ||
    decide (c.2.2.2 + 1300000000000000 ≤ b.2.2.1)

/-- All pairs of a list. -/
def allPairs {α : Type} (f : α → α → Bool) : List α → Bool
  | [] => true
  | a :: l => l.all (f a) && allPairs f l

theorem names_lsst : (lsstFile.map (·.1)).Nodup := by decide +kernel

theorem names_des : (desFile.map (·.1)).Nodup := by decide +kernel

theorem detectors_ok : lsstFile.all (fun d => detectorOk d.2) = true := by decide +kernel

theorem boxes_ok : (lsstFile.zip boxes).all (fun e => e.1.2.all (inBox e.2)) = true := by decide +kernel

theorem boxes_length : lsstFile.length = 189 ∧ boxes.length = 189 := by decide +kernel

theorem boxes_apart : allPairs apart boxes = true := by decide +kernel

end Sorcha.Cameras
