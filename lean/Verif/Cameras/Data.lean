import Mathlib.Data.Int.Notation

/-!
# The built-in camera files

`src/sorcha/modules/data/LSST_detector_corners_100123.csv` and `DES_ccd_corners.csv`, row by row. Both list the corners detector by
detector, so each line here is a detector with its corners in the order of the file. The numbers are the decimal numbers of
the files, as whole multiples of 10^-19 (LSST) and 10^-9 (DES).
-/

namespace Sorcha.Cameras

/-- Part 1 of `lsstFile`. -/
def lsstFile1 : List (String × List (ℤ × ℤ)) := [
  ("0", [(-144549995864540670, -306744015335768570), (-144578174287810260, -267326018208852000), (-183319149778724540, -267292699961917000), (-183282900769004380, -306706107820169040)]),
  ("1", [(-103661554209310700, -306748179193694900), (-103683408834165850, -267326500989835750), (-142432423190316060, -267303157521862200), (-142402485985151980, -306721388794837900)]),
  ("2", [(-62768386326808060, -306806249586274520), (-62772825290558990, -267382129127285530), (-101527588210555910, -267357886276863100), (-101515055988784740, -306779706241779200)]),
  ("3", [(-144598309909357550, -265836864744425100), (-144622965398720940, -226403681098924050), (-183371146806184730, -226375872436951240), (-183339563742134570, -265804452500443700)]),
  ("4", [(-103681437757070850, -265867248045451970), (-103693637218634750, -226430386204894140), (-142449873154147710, -226404158767574900), (-142430734572502600, -265837564653299380)]),
  ("5", [(-62735551317302995, -265956414629386770), (-62730114772512680, -226517111527740730), (-101492104587955450, -226487401219604250), (-101490591798916660, -265924399458894600)]),
  ("6", [(-144640176122619520, -224924000010107250), (-144665791847805940, -185477937763311800), (-183419984488996500, -185460067798280740), (-183388588168042600, -224901513633350560)]),
  ("7", [(-103746493751413880, -224940671250352660), (-103753924477712860, -185490923233027070), (-142516183290589140, -185466617790893100), (-142502961919225810, -224912899933925360)]),
  ("8", [(-62767048790323505, -225000245764867820), (-62779916768586040, -185548026918617680), (-101547940360210700, -185540513488191320), (-101529274507443800, -224990417650346200)]),
  ("9", [(-21484233547550940, -306804477308826040), (-21495787095872805, -267379090219311200), (-60254027709333300, -267378199566080600), (-60234376084660360, -306802439760008980)]),
  ("10", [(19439432204908758, -306788185839458260), (19439470824933378, -267362762577263050), (-19319920848809213, -267366724964979780), (-19311859865885162, -306792149206472800)]),
  ("11", [(60363038502515790, -306824862745674700), (60373721954134660, -267400639242594620), (21615490849462094, -267410385614374900), (21612906459204580, -306835757808582750)]),
  ("12", [(-21521872910679330, -265908249358245420), (-21540256826535280, -226467660893107200), (-60305724198903630, -226475281583384670), (-60280388613169880, -265914717694008680)]),
  ("13", [(19421903682718617, -265887788423294360), (19425466872445693, -226447160305381500), (-19341159792803943, -226447089368149550), (-19337770115597850, -265887718682600860)]),
  ("14", [(60366923367091430, -265932654391561800), (60368243012556490, -226493232779022940), (21602778441313203, -226509221225550740), (21608411946940890, -265949793417962100)]),
  ("15", [(-21570870252089866, -224987594046588900), (-21578282672901398, -185534107291052100), (-60349793988428440, -185532768472742580), (-60336580160233270, -224985100623692100)]),
  ("16", [(19434284034389653, -224972965415849470), (19429338125516813, -185519443962676760), (-19343327986077030, -185527163273808550), (-19332579596925761, -224980684992905670)]),
  ("17", [(60387649277022120, -224959248383450640), (60397436391255210, -185506911559538600), (21625923862463780, -185511627687725870), (21621937565446093, -224965120046236000)]),
  ("18", [(101497227697601290, -306771748640879380), (101509164162744950, -267349924611990600), (62754397596015265, -267374744196657470), (62750554209367770, -306798868102558970)]),
  ("19", [(142382449190663170, -306801472284402060), (142403594645773130, -267383278060004400), (103654587242329020, -267415260345204000), (103641527445791410, -306836899148834400)]),
  ("20", [(183289651260409440, -306711523762307200), (183328228672617260, -267298116809442830), (144587257836655000, -267329152739949750), (144556750875949550, -306747149616867530)]),
  ("21", [(101550051972722300, -265872452701694620), (101562027518855140, -226435433536555760), (62800036875272200, -226454884058001520), (62795008487398565, -265894211594696480)]),
  ("22", [(142454752744200650, -265855465235155140), (142480446162727400, -226422063559301480), (103724220574367320, -226441865747698850), (103705466150120560, -265878725195597060)]),
  ("23", [(183393119831787700, -265802257872850100), (183413707802674100, -226373694513735750), (144665530929645580, -226412319253427270), (144651871797914780, -265845485765472850)]),
  ("24", [(101514184018827740, -224927978841382200), (101532369137686890, -185478055792439700), (62764335348490790, -185486028907689630), (62751946381640300, -224938266152642370)]),
  ("25", [(142459927312612550, -224957584876836900), (142475909036876140, -185511309255764130), (103713649853295880, -185532900053977100), (103703459775033570, -224982640742204250)]),
  ("26", [(183426794786631130, -224922615037700800), (183439659467209380, -185481194477984200), (144685467466129900, -185517283870981240), (144678386223281670, -224963319148808460)])]

/-- Part 2 of `lsstFile`. -/
def lsstFile2 : List (String × List (ℤ × ℤ)) := [
  ("27", [(-267617237091625500, -183728990998506950), (-267665477573236080, -144290751428736450), (-306386517827197430, -144277153816368040), (-306333688833977760, -183707321740368720)]),
  ("28", [(-226733867062374820, -183711954959974500), (-226763046411183750, -144266366243815100), (-265499018776821880, -144243022441552130), (-265465236185298480, -183681683209383700)]),
  ("29", [(-185769719175814300, -183741637573370100), (-185803212195726030, -144289902144801000), (-224551837974114900, -144279794522699860), (-224513731135214530, -183725748579973300)]),
  ("30", [(-267645766985623380, -142744491924172700), (-267674049220553780, -103298056875557030), (-306398713039455760, -103281084740989280), (-306366985671252500, -142719436930980500)]),
  ("31", [(-226728476795858070, -142750967246003400), (-226750463900133070, -103297169164839750), (-265490058680681980, -103280606628637730), (-265464616252195600, -142727466703787600)]),
  ("32", [(-185792266613499600, -142772945195309070), (-185805544863311100, -103313000527786840), (-224557803986177650, -103294489429248660), (-224541061055965100, -142748645169377480)]),
  ("33", [(-267707953320618540, -101878654272757350), (-267738292363999600, -62426377224306580), (-306465338197185780, -62427628377632015), (-306432699572160360, -101871811735569500)]),
  ("34", [(-226800223210186360, -101811724505858380), (-226824959980019660, -62352069911145456), (-265566945365687700, -62352053038887585), (-265539903735013060, -101804759668577670)]),
  ("35", [(-185803553731051020, -101866950581636260), (-185822104654233540, -62401136150714630), (-224576777838702240, -62399253878510150), (-224555914373938900, -101859272097856130)]),
  ("36", [(-144599550513969610, -183801946851853380), (-144619297604124930, -144345275131283130), (-183378353059936100, -144330722672980260), (-183353980402511700, -183782770489289320)]),
  ("37", [(-103654801705568530, -183786609568182930), (-103669771370221620, -144326231481123470), (-142436899915265370, -144316024363741540), (-142417298129437760, -183772930908507570)]),
  ("38", [(-62728766273102360, -183859069128089430), (-62728383376674220, -144396229010563470), (-101501279051141660, -144379975994987880), (-101497022314078700, -183840499459967000)]),
  ("39", [(-144651478432604090, -142870950324652180), (-144659264082252980, -103406067651750050), (-183421941323961600, -103388797374026400), (-183410681478116200, -142849048563985420)]),
  ("40", [(-103710919749812300, -142817200432149200), (-103723156415144540, -103348598548039240), (-142493910173938200, -103342347540636370), (-142478196321832300, -142807471123250640)]),
  ("41", [(-62739550495960710, -142858698570246200), (-62745623054629935, -103387616847247560), (-101522156539940180, -103381954117434840), (-101512601708020310, -142850714372740830)]),
  ("42", [(-144691782432367910, -101849134543538620), (-144696585430656370, -62378364062576210), (-183461687077418130, -62367230047748745), (-183454566347125300, -101833362737496420)]),
  ("43", [(-103728013633245550, -101961080186444500), (-103720818330288210, -62486612629690850), (-142494000357024160, -62467913517884320), (-142498870777298860, -101938899775305820)]),
  ("44", [(-62765442341112110, -101916637092156850), (-62772090757672910, -62439671328495035), (-101551054773420560, -62438823034592006), (-101542081262714650, -101913463943794460)]),
  ("45", [(-21539304389979605, -183792136500602400), (-21549185987130466, -144328014118748820), (-60325569315385800, -144330950301892640), (-60311047348098110, -183793916399083960)]),
  ("46", [(19355746475194552, -183839288212709860), (19361893548204404, -144375143838563550), (-19415639106478042, -144371380096915900), (-19417143379679740, -183835524071068900)]),
  ("47", [(60305730131379930, -183837476816960600), (60311490121035220, -144374521245642250), (21535109377536837, -144380192183205250), (21533991345927550, -183844302818910700)]),
  ("48", [(-21627551682480736, -142863908779237780), (-21632022361406434, -103391562677400250), (-60412038018914650, -103391002428132160), (-60404082659415480, -142862188620848630)]),
  ("49", [(19323741942373104, -142832199477274140), (19326070284206706, -103359813497508200), (-19455105864612274, -103359227345711690), (-19453949600798368, -142831611540894710)]),
  ("50", [(60334861620861920, -142876049275691050), (60340521824730620, -103404862607855070), (21560502989581543, -103407666955113770), (21558327954216500, -142880011356860560)]),
  ("51", [(-21589639966625730, -101911777617967200), (-21601792648894965, -62433544729925510), (-60384243764698840, -62442373303683810), (-60369764636228010, -101919445580236250)]),
  ("52", [(19340226588958990, -101860145977093930), (19341425672694090, -62381872314671200), (-19442186494576278, -62381831477835380), (-19441059920186762, -101860103715848420)]),
  ("53", [(60317400285296975, -101861671057551850), (60307712438385320, -62384592257984680), (21525254566287203, -62399493283401360), (21537268214086730, -101877729564101360)])]

/-- Part 3 of `lsstFile`. -/
def lsstFile3 : List (String × List (ℤ × ℤ)) := [
  ("54", [(101497067689100600, -183750498809090200), (101528866416373520, -144289951343057900), (62755973108008350, -144279141213770070), (62728809599536240, -183742008700353530)]),
  ("55", [(142502498934841040, -183751983423047420), (142537222250564100, -144295079048938220), (103770116431011560, -144290447147434970), (103740023196012950, -183750827309474040)]),
  ("56", [(183437639095273300, -183780994286332940), (183459536454640450, -144328958375086990), (144700498084273010, -144345960660176470), (144683226529089080, -183802622525535040)]),
  ("57", [(101534451942631340, -142806279176462560), (101546650204623400, -103337512488746100), (62770116621099820, -103340576278738130), (62761399195694870, -142811665306176950)]),
  ("58", [(142497367629042900, -142798311402601750), (142518291613873500, -103333187545912780), (103747543034945380, -103334321425238760), (103730095481274020, -142802924620995360)]),
  ("59", [(183441301605896150, -142805103232264840), (183476429104100700, -103344844278159820), (144713771373854960, -103338657387919140), (144682113920906030, -142803550965963520)]),
  ("60", [(101537091481790940, -101934854757594910), (101554158129063270, -62460216411433480), (62775197394015275, -62453116430399200), (62760455895045660, -101930080041528520)]),
  ("61", [(142489035428372080, -101896508378870160), (142517826341843700, -62425513595507414), (103744653275364750, -62411131453112430), (103718182850404320, -101885609560799440)]),
  ("62", [(183465427857539240, -101858147917388600), (183478550235348440, -62392018127574120), (144713454351582600, -62397261995079945), (144702649673743160, -101868030289891250)]),
  ("63", [(224628878814406260, -183695778021428120), (224640608781920060, -144249852995360080), (185891993309249800, -144285894821332470), (185884880213743400, -183737601233471370)]),
  ("64", [(265551770952793980, -183728069801794700), (265585493648427540, -144289436406205800), (226849555165724700, -144312875037873720), (226820437001112600, -183758438780784250)]),
  ("65", [(306452756365388980, -183608407638930300), (306486542291900740, -144178255893303350), (267765514583170360, -144210557482313330), (267736318200058820, -183648781901348600)]),
  ("66", [(224618789289973940, -142833669265502640), (224624271800113320, -103379548287213140), (185872036274745130, -103409163946358750), (185870022497512300, -142869074943961970)]),
  ("67", [(265571780929759050, -142751919801965220), (265599721990080400, -103305083564783100), (226860167239869900, -103319216395027760), (226835681731952100, -142772993873405770)]),
  ("68", [(306488684503977320, -142703897129680330), (306511157358696250, -103265574891976880), (267786531981924170, -103291658491801900), (267767505659441650, -142738066107997770)]),
  ("69", [(224681481495550600, -101879790981693300), (224700225681158940, -62419795885549220), (185945587403860030, -62423780281351180), (185929156638656450, -101889574973881970)]),
  ("70", [(265566667771530430, -101820209787062130), (265567648752698880, -62367519317861720), (226825658810965450, -62393162266981960), (226826987680590400, -101852799666706590)]),
  ("71", [(306525452003101540, -101863296299325860), (306532828863592000, -62419140506359385), (267805800441642160, -62442733263146570), (267800727991465630, -101894983613263040)]),
  ("72", [(-267717438594705580, -60622073231631620), (-267711537332340520, -21166257235365590), (-306439828842849440, -21148272002746407), (-306444581482568600, -60595990465583950)]),
  ("73", [(-226828519887739870, -60649672379937715), (-226839075036381450, -21186483749727238), (-265582287083383250, -21186471096281533), (-265570582407242230, -60642707176920200)]),
  ("74", [(-185869151314106140, -60747839113530520), (-185858653830780520, -21278496089178450), (-224614547294554740, -21259590404917060), (-224623887352544370, -60723132864059430)]),
  ("75", [(-267735295600729960, -19681786768782857), (-267730318115086720, 19775198901015134), (-306458622448001970, 19776021741120084), (-306463600381494700, -19672863779886937)]),
  ("76", [(-226852413960276600, -19770293887638518), (-226857114333726600, 19694061219287283), (-265600342802418470, 19685978389822256), (-265595642048389400, -19771422195393810)]),
  ("77", [(-185867113993130600, -19755719622582815), (-185859816676587320, 19714805310236897), (-224615733289378060, 19719079287316165), (-224623029148489000, -19745643408642830)]),
  ("78", [(-267742490859129900, 21227080205430244), (-267722038608780680, 60682895060472080), (-306449168648154250, 60682684184845810), (-306470766657060200, 21234968068367067)]),
  ("79", [(-226855255826038940, 21183239377109845), (-226849118585969460, 60646424570479935), (-265591175762484140, 60635118319063350), (-265598463087746500, 21178886072332880)]),
  ("80", [(-185876898801534750, 21201500446551406), (-185863968780640670, 60670852879294600), (-224618706348477200, 60669183796640560), (-224632788796816430, 21205632753024915)])]

/-- Part 4 of `lsstFile`. -/
def lsstFile4 : List (String × List (ℤ × ℤ)) := [
  ("81", [(-144656106436152150, -60686147746976575), (-144666429417423540, -21211826687220032), (-183432767796095730, -21215226248685456), (-183421289447613300, -60684907062086700)]),
  ("82", [(-103729575605479630, -60681494199230460), (-103739939738016420, -21203462670302624), (-142514355202158480, -21208725460622416), (-142502834064634450, -60683272196981250)]),
  ("83", [(-62755027396855760, -60654125212127640), (-62767246681859520, -21173602253950095), (-101547446885007640, -21182515466322735), (-101534070077229310, -60660712135122590)]),
  ("84", [(-144618397327160290, -19761992436615233), (-144607427816496300, 19713506000514360), (-183373800088566450, 19721967744993764), (-183384767885062800, -19748890975290430)]),
  ("85", [(-103710188392659680, -19717329964151390), (-103710186705894720, 19761877662382680), (-142484629418045300, 19760133369611695), (-142484631734571250, -19715589603285922)]),
  ("86", [(-62754471286180050, -19708350436592973), (-62747600541204030, 19773346092983573), (-101527824418494050, 19778928713714900), (-101534695807131700, -19700441587131895)]),
  ("87", [(-144685493465184970, 21216154830344287), (-144683062796136200, 60690472758311270), (-183448241543747800, 60681476401097140), (-183451828442249350, 21211799155343280)]),
  ("88", [(-103745477987532660, 21271830959848255), (-103747305810733690, 60749857084457750), (-142520560564729710, 60739646985528600), (-142519892497396240, 21265105650425543)]),
  ("89", [(-62776332923561430, 21196176551124654), (-62782272687942810, 60676697100616910), (-101561313910068630, 60665443271532250), (-101556533037308710, 21187249035153010)]),
  ("90", [(-21634498669543005, -60675729695877124), (-21633842404781320, -21193939746764028), (-60417530875652810, -21192035912397373), (-60417027826940120, -60672664008451070)]),
  ("91", [(19329553660136507, -60754104731981050), (19341898460657231, -21272286433983807), (-19442945752781871, -21260727934373134), (-19454128935696656, -60742544952807050)]),
  ("92", [(60344168499814384, -60730924978301020), (60339026429481030, -21250297737536670), (21555334948604086, -21257748089436840), (21561638213854530, -60739534886773160)]),
  ("93", [(-21607143181766354, -19734299477379610), (-21609590766163964, 19748665066616268), (-60393301800054530, 19745679782093970), (-60390854451194790, -19736123348256960)]),
  ("94", [(19348700233431325, -19711469191125790), (19344791204188570, 19771529062389600), (-19440076578457468, 19767688893238680), (-19436168345675954, -19715308066026400)]),
  ("95", [(60296262443363970, -19703060839717772), (60294997720092570, 19778746596032960), (21511281586897490, 19778086244235260), (21512545289944706, -19704879873498880)]),
  ("96", [(-21568218914641214, 21180040277317520), (-21559283255621360, 60661831442065430), (-60341815788930090, 60668193366114880), (-60351910242989690, 21187562319306356)]),
  ("97", [(19400039784472910, 21204085266148330), (19399459631955056, 60685908155576900), (-19384227406640134, 60685908487169340), (-19384807103642679, 21204085382023905)]),
  ("98", [(60345833945761350, 21204941413130573), (60353978598936680, 60685570112334700), (21571447450339748, 60697126930429540), (21562142763936506, 21215338519739600)]),
  ("99", [(101543799508931500, -60695916890658045), (101545375554375400, -21217722103868764), (62765174062482370, -21220407543399936), (62764757339068180, -60700928408680560)]),
  ("100", [(142478852321176720, -60715525751839810), (142488442464026990, -21240978170642670), (103714022722862770, -21237617765062290), (103705590681302360, -60715649380560880)]),
  ("101", [(183458609594998880, -60692655546756070), (183464526099273370, -21222980118965670), (144698194242469940, -21225049747476857), (144693433999462750, -60699366245346660)]),
  ("102", [(101599050434287000, -19744829265788354), (101595656193848770, 19734536585626310), (62815438836123290, 19732365230278456), (62818833453267160, -19749328720393413)]),
  ("103", [(142507918751873780, -19751763857210817), (142505275658527140, 19723956742306596), (103730836115577770, 19723099684911135), (103733479853046090, -19756106189138156)]),
  ("104", [(183427116633295900, -19704025758545715), (183422416881984070, 19766828121434940), (144656054653392930, 19764537913499350), (144660754089314550, -19710956967617970)]),
  ("105", [(101590703339769360, 21196639043272853), (101585574522687070, 60674832054792440), (62806536432824350, 60676353587631450), (62810506767324685, 21195833168788816)]),
  ("106", [(142480402177939530, 21218092915829072), (142472511958127280, 60692642566637180), (103699247865875000, 60694431574895730), (103705980469945960, 21216398138088712)]),
  ("107", [(183421015839501300, 21237182061456072), (183421767200170400, 60706860635109050), (144656583334827100, 60720124397039650), (144654674498856560, 21245806068315573)])]

/-- Part 5 of `lsstFile`. -/
def lsstFile5 : List (String × List (ℤ × ℤ)) := [
  ("108", [(224553137267081630, -60665164453962030), (224562602134900370, -21201602255104510), (185806691394864130, -21202004253012050), (185798379530326340, -60671365805782035)]),
  ("109", [(265546636571974350, -60646859510438640), (265551913781891600, -21190619608016247), (226808690895115300, -21196951304374803), (226804564455131560, -60660142819402430)]),
  ("110", [(306398692960464060, -60647389488883170), (306411373142581220, -21199659352657556), (267683070779999660, -21200523003495034), (267671537162551000, -60656350103244280)]),
  ("111", [(224587750807755800, -19687021478721617), (224580090769497320, 19777706958718855), (185824165035948850, 19773092592972317), (185831824932036600, -19697437083144097)]),
  ("112", [(265523437629595660, -19722893290306380), (265531954283193540, 19734520259056523), (226788703737185840, 19746371232662622), (226780185431134580, -19717994863878794)]),
  ("113", [(306394515134974900, -19686104537556610), (306386977481374370, 19762796280335040), (267658645462813850, 19759449847861490), (267666183554341600, -19697549149016603)]),
  ("114", [(224578272682569820, 21247948244990564), (224567104050617100, 60711505496805540), (185812352758582930, 60716047631745470), (185822367334180470, 21246690565668563)]),
  ("115", [(265545207875726820, 21241551631254360), (265529944444824020, 60697792293774030), (226787871981029360, 60701276415627360), (226801984953892800, 21238084202270494)]),
  ("116", [(306411279141960150, 21180521709955693), (306391232591895040, 60628254133030440), (267664076538167250, 60629963168751140), (267682978541149770, 21174133687336910)]),
  ("117", [(-267678194661919860, 62391105640446460), (-267676176111032070, 101843384309444600), (-306400953528750340, 101808733108916790), (-306405275591315060, 62364545316200455)]),
  ("118", [(-226772179013364980, 62433784870979720), (-226772004991667200, 101893427623789990), (-265511700461948250, 101862307695215000), (-265514185262035300, 62409610427297940)]),
  ("119", [(-185823339890451330, 62422140180648130), (-185828420331897900, 101887941126175380), (-224580779673166780, 101857040019894040), (-224578015215378020, 62397034368626710)]),
  ("120", [(-267665530704419630, 103312113010482730), (-267660704830727270, 142758526333517120), (-306381930487967300, 142710418128516160), (-306390205955708700, 103272085842201400)]),
  ("121", [(-226775521256301970, 103346092908136700), (-226759439562801040, 142799874710580500), (-265495567481518030, 142770550793506200), (-265515106736237440, 103323707291163080)]),
  ("122", [(-185834767517174680, 103367903240898520), (-185820532449080430, 142827835041188600), (-224569312859762300, 142804454091943110), (-224587014032032670, 103350312093282630)]),
  ("123", [(-267660439134301700, 144223624172425960), (-267638742537505100, 183661858024719600), (-306355223674434980, 183614135539939930), (-306381511513448240, 144183970721384560)]),
  ("124", [(-226786963106931800, 144301401319636510), (-226770197729046500, 183746967216371760), (-265501559742393900, 183704481949134100), (-265522931165456350, 144265843491537260)]),
  ("125", [(-185827015305619730, 144326987852439760), (-185825111356827630, 183778688020219370), (-224569122973711230, 183731752460331440), (-224575645590641550, 144285831355487340)]),
  ("126", [(-144791719501209240, 62383311835208250), (-144772426407765800, 101854074412226340), (-183535185657288030, 101852523540769700), (-183556795251789700, 62386402015222860)]),
  ("127", [(-103843566544257440, 62463959657121850), (-103824546451507030, 101938425863185140), (-142595382198137060, 101941984532345020), (-142616724764705140, 62471004142914390)]),
  ("128", [(-62823575757749795, 62438524528788820), (-62816134714225400, 101915488092961460), (-101592767776914290, 101913086851765780), (-101602533847681450, 62438449629360680)]),
  ("129", [(-144728928818493930, 103331654997070470), (-144711555623420530, 142796546897293540), (-183470748280896920, 142784066262862680), (-183491592665278630, 103323808460214250)]),
  ("130", [(-103785970616347720, 103384142834589400), (-103770804898970050, 142852734321383770), (-142538066307988840, 142845864355136200), (-142556710011314300, 103380753133080190)]),
  ("131", [(-62781277196950640, 103427459823979640), (-62775435916325690, 142898533010590210), (-101548479061539260, 142890310717237920), (-101557803747345300, 103421559986552390)]),
  ("132", [(-144690619614632700, 144298470281963160), (-144659387207390800, 183755148476986300), (-183413800423016460, 183747245903241460), (-183449655987108600, 144295194701882250)]),
  ("133", [(-103806685093917940, 144320302084709630), (-103791265584609880, 183780671309635020), (-142553739485621890, 183767401360082450), (-142573790899507440, 144310507575138910)]),
  ("134", [(-62831359639350940, 144326444049562750), (-62825576468962580, 183789297532834900), (-101593829421082330, 183776765397607300), (-101604250000207170, 144316232054860400)])]

/-- Part 6 of `lsstFile`. -/
def lsstFile6 : List (String × List (ℤ × ℤ)) := [
  ("135", [(-21589291821331935, 62431162197929550), (-21600748517687273, 101909394029575100), (-60380874816929030, 101893872735093950), (-60371744809202950, 62416800217629460)]),
  ("136", [(19440732900076700, 62452591921990430), (19425708821152595, 101930854114599350), (-19355570627049578, 101917245544438460), (-19342874014567442, 62438981412869790)]),
  ("137", [(60321516557044750, 62446610386694650), (60311540873013640, 101923685406721810), (21531412087954314, 101920433493205900), (21539061019794370, 62442199816706810)]),
  ("138", [(-21590518500450770, 103365977281725040), (-21595802350713863, 142838327310834890), (-60372338694987095, 142827035064702050), (-60370538931853650, 103355843120705500)]),
  ("139", [(19340883330519409, 103429045630398790), (19327143901904536, 142901418231613730), (-19450539338987075, 142889625495980030), (-19440286314125214, 103417253497271770)]),
  ("140", [(60367273943965185, 103374970634628750), (60349888998163690, 142846161334153780), (21573355552297704, 142838609019181470), (21587256655255893, 103366259044491790)]),
  ("141", [(-21581419424316630, 144305664862345100), (-21583612653606410, 183769791367063900), (-60355358871403710, 183759705017416100), (-60357805539250490, 144296734577498200)]),
  ("142", [(19352691825036028, 144302083112316050), (19336521428581696, 183766242794370960), (-19436376492526470, 183752630723901520), (-19424846694927648, 144288470763326640)]),
  ("143", [(60324797914036750, 144303369446825550), (60318131547889490, 183766340966856140), (21546384132135983, 183772274867441760), (21548410584932317, 144308147818949140)]),
  ("144", [(101580002063172730, 62379267263014590), (101560334368699740, 101853912692585320), (62783696593946070, 101846575329330720), (62801041607892655, 62369603796599150)]),
  ("145", [(142493050970315620, 62388057358501920), (142481196086120150, 101859059532308630), (103710331231530950, 101864791000420980), (103719865075684560, 62390306876284170)]),
  ("146", [(183517346686686880, 62441474011967600), (183503781534039080, 101907593052931370), (144741015743682200, 101917057727845540), (144752261858137450, 62446299075402140)]),
  ("147", [(101548398269792460, 103377586011232470), (101526842906211060, 142846346337961680), (62753796730194840, 142842545707299060), (62771870762329840, 103371462368497190)]),
  ("148", [(142474897135492550, 103412598812913390), (142462334855095910, 142877711194050000), (103695061832013770, 142890546675033700), (103704144642215300, 103421956747988890)]),
  ("149", [(183450037243905400, 103368789867420780), (183421931649053460, 142829047527296800), (144662736763692180, 142834396248323340), (144687370779475220, 103369505181104980)]),
  ("150", [(101548403615987670, 144308241959995270), (101517982190138730, 183768783976146660), (62749727929096440, 183761654075127040), (62775513528469090, 144298791618208320)]),
  ("151", [(142522660055618110, 144287053831272280), (142488846260524370, 183743961511856140), (103726366453978890, 183743693787290900), (103755550305815500, 144283310812877620)]),
  ("152", [(183428081341170040, 144349051782680480), (183406066635256900, 183801087363797030), (144651649660760500, 183822597472474700), (144669038005826810, 144365936814559300)]),
  ("153", [(224599080202743070, 62386387648818200), (224587132002552600, 101846400596344920), (185834775489093900, 101862840585961140), (185844410189935300, 62397031156214275)]),
  ("154", [(265563761786608840, 62343791594365670), (265555411709130430, 101796491316795460), (226815727130669740, 101821827708226450), (226821769311695100, 62362180861817760)]),
  ("155", [(306429650165294660, 62348986686917160), (306409919041944400, 101793182157775340), (267685149228497380, 101812678431064100), (267702580376061630, 62360390774130490)]),
  ("156", [(224607443100760100, 103357623286764540), (224595142587959460, 142811756780268660), (185846368279863900, 142840451697589710), (185855201685040940, 103380528193500140)]),
  ("157", [(265596217743325760, 103341974976128830), (265579585359236600, 142788797198608800), (226843486323974200, 142821000637083990), (226856660141934940, 103367238042307830)]),
  ("158", [(306462112880531750, 103290327448004560), (306449885616544700, 142728645477766100), (267728689525610040, 142772889471717400), (267737467494182060, 103326488133861450)]),
  ("159", [(224634489859596100, 144278192837453520), (224618970440460200, 183724116529833360), (185874973871804700, 183762222909184540), (185885876183461940, 144310517652542390)]),
  ("160", [(265555344722816850, 144241335789879170), (265523645336718100, 183679984244734360), (226792294034850100, 183712316958581260), (226819389876435040, 144266739175679120)]),
  ("161", [(306467843551850240, 144228534766800580), (306433732978327460, 183658679544600300), (267717294185267700, 183698751298609460), (267746813868666300, 144260534356166650)])]

/-- Part 7 of `lsstFile`. -/
def lsstFile7 : List (String × List (ℤ × ℤ)) := [
  ("162", [(-144612137873547700, 185509400678384940), (-144597375414417860, 224955452642950950), (-183345799749447850, 224922316649246380), (-183366344720139360, 185480878275374900)]),
  ("163", [(-103758465259484140, 185501999561322430), (-103758687460883920, 224951738450108770), (-142515153968045560, 224916448302890270), (-142520723235839200, 185470174491150570)]),
  ("164", [(-62802047444843030, 185548211778434750), (-62809341127904550, 225000420919562900), (-101571567086607090, 224970786554262720), (-101570072092658620, 185520890290746080)]),
  ("165", [(-144597170633342460, 226441944925745360), (-144586833941977210, 265875104935983380), (-183328092734368450, 265828632953549120), (-183345359424171680, 226400073686112600)]),
  ("166", [(-103709346537902630, 226492429728028400), (-103690669471407840, 265929272900712260), (-142439949007219550, 265905934261529700), (-142465566493128140, 226472548421122780)]),
  ("167", [(-62771900424994380, 226482473677003300), (-62775003537677680, 265921788398614140), (-101530045925262000, 265892052679575250), (-101533891075783860, 226455044341154900)]),
  ("168", [(-144613165030960940, 267377062724928800), (-144587103449629050, 306795033888802500), (-183319990868211460, 306755022033713270), (-183354124648052970, 267341640729092000)]),
  ("169", [(-103687931654585210, 267403865485811470), (-103670409162105500, 306825509671847450), (-142411325719010770, 306794451792987940), (-142436933243476100, 267376253893403870)]),
  ("170", [(-62762016995642830, 267358158323914230), (-62749258521288440, 306782292767336860), (-101495931830645580, 306763923997566720), (-101516782558316170, 267342091190065980)]),
  ("171", [(-21493193087617525, 185549439907310700), (-21474939989309040, 225002921926143980), (-60240647553211630, 225011099939866270), (-60264702351704170, 185558771434592640)]),
  ("172", [(19451930892361085, 185556206161450700), (19448190761842989, 225009718227904450), (-19318668388740492, 225008915056769680), (-19320731653504543, 185555401042188800)]),
  ("173", [(60352428954975090, 185508607947294600), (60356618324848840, 224960940550969660), (21590906075170850, 224980525014911730), (21580915268249825, 185527039827819430)]),
  ("174", [(-21516477192720786, 226471071586247100), (-21512538613807815, 265911660395004230), (-60271061012079150, 265903953477797300), (-60281951551397710, 226464514234840440)]),
  ("175", [(19447915538957066, 226440389620288300), (19446242915550152, 265881019523485920), (-19313431951603595, 265882814306825100), (-19318712031287542, 226442182854283500)]),
  ("176", [(60328976091213580, 226476296580914000), (60313263167254580, 265915730841099900), (21554746179661710, 265918720355008100), (21563507012537656, 226478134501104800)]),
  ("177", [(-21518025398005980, 267437614399228080), (-21515578688868875, 306862977211205360), (-60265710251722170, 306851987160702400), (-60276256793798130, 267427770285777470)]),
  ("178", [(19449814444036427, 267407885051473500), (19442198745417646, 306833291007593750), (-19309084282943417, 306829820528076170), (-19309569345423267, 267404411991844920)]),
  ("179", [(60384225698531130, 267328883892208600), (60381668496240720, 306753131604252760), (21631521995284750, 306772004431415080), (21625981813494110, 267346609134519460)]),
  ("180", [(101478559546102630, 185479302156735770), (101465590747496000, 224929226677074780), (62703346446877220, 224944621065229430), (62710518697952730, 185492384491535120)]),
  ("181", [(142485059453115150, 185501269323206830), (142468919724516060, 224947546986193400), (103712452136268640, 224972448554572100), (103722800517512680, 185522705546287870)]),
  ("182", [(183418708974865400, 185470882670470580), (183377845490546900, 224912330698385000), (144629440411004180, 224925518319363420), (144664524148650720, 185479452775526500)]),
  ("183", [(101445209025208560, 226497258952523300), (101423939473821640, 265934270521102560), (62668895992746210, 265946867414110500), (62683217267707290, 226507549394492220)]),
  ("184", [(142420459137409420, 226396847160924800), (142399511913132890, 265830260118066870), (103650209100843090, 265858154965561980), (103664217575635490, 226421286609940970)]),
  ("185", [(183335713704183660, 226407622852373040), (183290764819575330, 265836206933156330), (144549517177851340, 265855484636577170), (144587539216706100, 226422296006707420)]),
  ("186", [(101445650531273670, 267393022192481850), (101420275131543300, 306814842267061660), (62673606275089290, 306828744727071430), (62690888294135300, 267404624231293540)]),
  ("187", [(142391595981205460, 267385718372352630), (142348172216993450, 306803929383578000), (103607259483257540, 306817474096927920), (103642599632613640, 267395814979568500)]),
  ("188", [(183334514621121820, 267344556497843620), (183285403128529670, 306757953511844830), (144552521880794950, 306783247431348280), (144593562911179350, 267365258506644700)])]

/-- The 756 rows of `LSST_detector_corners_100123.csv`. -/
def lsstFile : List (String × List (ℤ × ℤ)) :=
  lsstFile1 ++ lsstFile2 ++ lsstFile3 ++ lsstFile4 ++ lsstFile5 ++ lsstFile6 ++ lsstFile7

/-- Part 1 of `desFile`. -/
def desFile1 : List (String × List (ℤ × ℤ)) := [
  ("N1", [(-1081100000, -157306000), (-1081100000, -7505060), (-782681000, -7505060), (-782681000, -157306000)]),
  ("N2", [(-771362000, -157385000), (-771362000, -7498480), (-472493000, -7498480), (-472493000, -157385000)]),
  ("N3", [(-461205000, -157448000), (-461205000, -7492650), (-161464000, -7492650), (-161464000, -157448000)]),
  ("N4", [(-150127000, -157470000), (-150127000, -7490850), (149894000, -7490850), (149894000, -157470000)]),
  ("N5", [(161033000, -157638000), (161033000, -7429400), (460796000, -7429400), (460796000, -157638000)]),
  ("N6", [(472171000, -157286000), (472171000, -7405630), (771045000, -7405630), (771045000, -157286000)]),
  ("N7", [(782398000, -157141000), (782398000, -7479800), (1080830000, -7479800), (1080830000, -157141000)]),
  ("N8", [(-926150000, -321782000), (-926150000, -172004000), (-627492000, -172004000), (-627492000, -321782000)]),
  ("N9", [(-616455000, -322077000), (-616455000, -172189000), (-317043000, -172189000), (-317043000, -322077000)]),
  ("N10", [(-305679000, -322071000), (-305679000, -172170000), (-5719990, -172170000), (-5719990, -322071000)]),
  ("N11", [(5654270, -322243000), (5654270, -172254000), (305554000, -172254000), (305554000, -322243000)]),
  ("N12", [(316840000, -322099000), (316840000, -172063000), (616183000, -172063000), (616183000, -322099000)]),
  ("N13", [(627264000, -321792000), (627264000, -171887000), (925858000, -171887000), (925858000, -321792000)]),
  ("N14", [(-926057000, -485961000), (-926057000, -336213000), (-627260000, -336213000), (-627260000, -485961000)]),
  ("N15", [(-616498000, -486444000), (-616498000, -336606000), (-317089000, -336606000), (-317089000, -486444000)]),
  ("N16", [(-305580000, -486753000), (-305580000, -336864000), (-5782570, -336864000), (-5782570, -486753000)]),
  ("N17", [(5321790, -486814000), (5321790, -336870000), (305123000, -336870000), (305123000, -486814000)]),
  ("N18", [(316662000, -486495000), (316662000, -336537000), (616018000, -336537000), (616018000, -486495000)]),
  ("N19", [(627080000, -485992000), (627080000, -336061000), (925780000, -336061000), (925780000, -485992000)]),
  ("N20", [(-770814000, -650617000), (-770814000, -500679000), (-471826000, -500679000), (-471826000, -650617000)]),
  ("N21", [(-460777000, -650817000), (-460777000, -501097000), (-161224000, -501097000), (-161224000, -650817000)]),
  ("N22", [(-149847000, -650816000), (-149847000, -501308000), (149886000, -501308000), (149886000, -650816000)]),
  ("N23", [(161001000, -650946000), (161001000, -501263000), (460566000, -501263000), (460566000, -650946000)]),
  ("N24", [(471630000, -650495000), (471630000, -500592000), (770632000, -500592000), (770632000, -650495000)]),
  ("N25", [(-615548000, -814774000), (-615548000, -665052000), (-316352000, -665052000), (-316352000, -814774000)]),
  ("N26", [(-305399000, -814862000), (-305399000, -665489000), (-5912170, -665489000), (-5912170, -814862000)]),
  ("N27", [(5507140, -815022000), (5507140, -665418000), (304979000, -665418000), (304979000, -815022000)]),
  ("N28", [(316126000, -814707000), (316126000, -664908000), (615276000, -664908000), (615276000, -814707000)]),
  ("N29", [(-460180000, -978870000), (-460180000, -829315000), (-161010000, -829315000), (-161010000, -978870000)]),
  ("N31", [(160884000, -978775000), (160884000, -829426000), (460147000, -829426000), (460147000, -978775000)]),
  ("S1", [(-1080960000, 7159560), (-1080960000, 156890000), (-782554000, 156890000), (-782554000, 7159560)])]

/-- Part 2 of `desFile`. -/
def desFile2 : List (String × List (ℤ × ℤ)) := [
  ("S2", [(-771300000, 7419400), (-771300000, 157269000), (-472420000, 157269000), (-472420000, 7419400)]),
  ("S3", [(-461100000, 7230090), (-461100000, 157192000), (-161377000, 157192000), (-161377000, 7230090)]),
  ("S4", [(-149836000, 7370690), (-149836000, 157441000), (150222000, 157441000), (150222000, 7370690)]),
  ("S5", [(161297000, 7239900), (161297000, 157200000), (461031000, 157200000), (461031000, 7239900)]),
  ("S6", [(472537000, 7289340), (472537000, 157137000), (771441000, 157137000), (771441000, 7289340)]),
  ("S7", [(782516000, 74830955), (782516000, 157090000), (1080970000, 157090000), (1080970000, 74830955)]),
  ("S8", [(-925830000, 171786000), (-925830000, 321730000), (-627259000, 321730000), (-627259000, 171786000)]),
  ("S9", [(-616329000, 171889000), (-616329000, 321823000), (-316940000, 321823000), (-316940000, 171889000)]),
  ("S10", [(-305695000, 172216000), (-305695000, 322179000), (-5791870, 322179000), (-5791870, 172216000)]),
  ("S11", [(5567390, 172237000), (5567390, 322278000), (305472000, 322278000), (305472000, 172237000)]),
  ("S12", [(316973000, 172015000), (316973000, 322057000), (616310000, 322057000), (616310000, 172015000)]),
  ("S13", [(627389000, 171749000), (627389000, 321672000), (925972000, 321672000), (925972000, 171749000)]),
  ("S14", [(-925847000, 335898000), (-925847000, 485780000), (-627123000, 485780000), (-627123000, 335898000)]),
  ("S15", [(-616201000, 336498000), (-616201000, 486438000), (-316839000, 486438000), (-316839000, 336498000)]),
  ("S16", [(-305558000, 336904000), (-305558000, 486749000), (-5748580, 486749000), (-5748580, 336904000)]),
  ("S17", [(5571150, 336750000), (5571150, 486491000), (305423000, 486491000), (305423000, 336750000)]),
  ("S18", [(316635000, 336490000), (316635000, 486573000), (615931000, 486573000), (615931000, 336490000)]),
  ("S19", [(627207000, 336118000), (627207000, 485923000), (925969000, 485923000), (925969000, 336118000)]),
  ("S20", [(-770675000, 500411000), (-770675000, 650420000), (-471718000, 650420000), (-471718000, 500411000)]),
  ("S21", [(-460720000, 501198000), (-460720000, 650786000), (-161101000, 650786000), (-161101000, 501198000)]),
  ("S22", [(-149915000, 501334000), (-149915000, 650856000), (149820000, 650856000), (149820000, 501334000)]),
  ("S23", [(160973000, 501075000), (160973000, 650896000), (460482000, 650896000), (460482000, 501075000)]),
  ("S24", [(471670000, 500450000), (471670000, 650441000), (770647000, 650441000), (770647000, 500450000)]),
  ("S25", [(-615564000, 665010000), (-615564000, 814674000), (-316325000, 814674000), (-316325000, 665010000)]),
  ("S26", [(-305120000, 665531000), (-305120000, 815050000), (-5651700, 815050000), (-5651700, 665531000)]),
  ("S27", [(5608860, 665509000), (5608860, 815022000), (305082000, 815022000), (305082000, 665509000)]),
  ("S28", [(316158000, 665058000), (316158000, 814732000), (615391000, 814732000), (615391000, 665058000)]),
  ("S29", [(-460210000, 829248000), (-460210000, 978699000), (-160988000, 978699000), (-160988000, 829248000)]),
  ("S30", [(-150043000, 829007000), (-150043000, 978648000), (149464000, 978648000), (149464000, 829007000)]),
  ("S31", [(160898000, 829320000), (160898000, 978804000), (460111000, 978804000), (460111000, 829320000)])]

/-- The 244 rows of `DES_ccd_corners.csv`. -/
def desFile : List (String × List (ℤ × ℤ)) :=
  desFile1 ++ desFile2

end Sorcha.Cameras
