import Verif.Model.Tables

/-!
# Reference values of the repository's own unit tests

The colour-checker reference tables of `colorchecker.rs:77-1220` that the tests of the repository compare
with, and the `BABELCOLOR` spectra of `spd.rs:402-1412`, copied from the source text by a script. Used by
`Verif.Conformance` only.
-/

namespace CS.Conformance

/-- `XYZ_D65`, colorchecker.rs:77 -/
def xyzD65 : List (String × ℚ × ℚ × ℚ) :=
  [("dark_skin", 11.147246585760028025902102, 10.072588850988735131863905, 6.804851374386516660308644),
   ("light_skin", 37.194721800912041942410724, 34.567866642655026510055905, 25.242625347936321844599661),
   ("blue_sky", 17.645512685337042313449274, 18.840745669460680744577985, 34.487464479138445483386022),
   ("foliage", 10.594739901308340535024399, 13.327734791878315334656691, 6.945293240773439791269084),
   ("blue_flower", 24.805343199506264539877520, 23.448877508726543084094374, 43.924710655835980332994950),
   ("bluish_green", 30.939729382054277806446407, 42.658530611772086160726758, 44.871428726929195818229346),
   ("orange", 37.166769794284888916990894, 29.668428952186939540069943, 6.336517033236169105236968),
   ("purplish_blue", 13.562804494926156806400286, 11.813584921599741051068122, 38.700511062732488198889769),
   ("moderate_red", 27.669109819076627587719486, 18.702493655780408232658374, 13.532572766805648356580605),
   ("purple", 8.383799018583362183676400, 6.356965302783169846634337, 13.991893682157272138510962),
   ("yellow_green", 33.656220304027733902785258, 44.207355950053695892165706, 11.323870868734163153135341),
   ("orange_yellow", 45.233538104391215028954321, 42.068383776537778828696901, 7.771898302018611204289300),
   ("blue", 7.985733783316090850235014, 6.118583084127553917141995, 28.349897691332994753565799),
   ("green", 14.650730683595259762341811, 23.442655669347171709659960, 9.856457483347925929706435),
   ("red", 19.573640762043474694564793, 11.700774873453577029636108, 5.028973177539572958494318),
   ("yellow", 56.049678312643010258398135, 59.420045497203417994569463, 9.259158982980897789616392),
   ("magenta", 29.443853393777558835608943, 19.261353401754348624308477, 31.073900904962080460336438),
   ("cyan", 14.637434350390281068143850, 19.962492706402244380115008, 39.321383653972105776119861),
   ("white_95", 86.236736258404803834309860, 91.236914549892304648892605, 95.431166160775632079094066),
   ("neutral_80", 55.675520233910646084041218, 58.862428191470570482124458, 63.679052737888120816478477),
   ("neutral_65", 34.035295367046018100154470, 35.957858109436315885432123, 39.110894619665202753822086),
   ("neutral_50", 18.074449247287745379253465, 19.128897801135334333366700, 20.882198295119568598465776),
   ("neutral_35", 8.450692858420268294139532, 8.948097881616423165951346, 9.876477785169473833093434),
   ("black_20", 3.052587003119916264637368, 3.200794039291807280278590, 3.540580710399631403362264)]

/-- `SRGB_LINEAR`, colorchecker.rs:103 -/
def srgbLinear : List (String × ℚ × ℚ × ℚ) :=
  [("dark_skin", 0.172472848088049357517804, 0.083759962817788274902497, 0.057588214119516790978626),
   ("light_skin", 0.548095178664651738742464, 0.298520072473280051461586, 0.217013562019778644129886),
   ("blue_sky", 0.110246043757098066695477, 0.196759632618355467803539, 0.335925928944526275277127),
   ("foliage", 0.103829969922548198679735, 0.150231511017197977286841, 0.052124440704572234939196),
   ("blue_flower", 0.224377199329057197552117, 0.217743828970848346537892, 0.430265057676509132811304),
   ("bluish_green", 0.123156994158220900459355, 0.519035322154572931196981, 0.404501028461430711669067),
   ("orange", 0.716769378172862459130954, 0.199041212317089544203697, 0.027155280754261622300216),
   ("purplish_blue", 0.064957066888961412232106, 0.106249925299062492056734, 0.392519170796692795644134),
   ("moderate_red", 0.541677032505047506560913, 0.088351388656319862491273, 0.120297901256569333972024),
   ("purple", 0.104202538462593308210558, 0.043819962336647824696634, 0.139595883056075620309855),
   ("yellow_green", 0.354647179356588515553028, 0.507845870795907483596920, 0.048256823653753971870017),
   ("orange_yellow", 0.780412155464097700985349, 0.354076329982187187894738, 0.021524542872345529820333),
   ("blue", 0.023378239923946081413320, 0.049163814407418293672691, 0.291624562823076582951387),
   ("green", 0.065266778571410277720588, 0.301876835307849256118118, 0.064520195024281884466077),
   ("red", 0.429364630916839962182507, 0.031921153601482038508763, 0.040189183649206192128212),
   ("yellow", 0.856774769327355079084896, 0.575378431243281140972101, 0.007872088455955224273186),
   ("magenta", 0.503137518674846573318860, 0.088918640453356734276724, 0.305558197966204425632952),
   ("cyan", (-0.028579159222773042881016), 0.248952710982160430042143, 0.383056591034591942257492),
   ("white_95", 0.916274030251293281068570, 0.915478239475917998646537, 0.870617982733549289342534),
   ("neutral_80", 0.581883905589711813988174, 0.591128119355468828466371, 0.584019498699165695576596),
   ("neutral_65", 0.355196666232587165978885, 0.360960546872658660788602, 0.359005785106055741451314),
   ("neutral_50", 0.187552544609087989968543, 0.192362638489200349356523, 0.191769352695837003164314),
   ("neutral_35", 0.087058873896904476197278, 0.090068395238972281946488, 0.090847286432883908591229),
   ("black_20", 0.032066193029057762919898, 0.031933320110622720466864, 0.032594609229506611713933)]

/-- `SRGB_ENCODED`, colorchecker.rs:129 -/
def srgbEncoded : List (String × ℚ × ℚ × ℚ) :=
  [("dark_skin", 0.452246936219735384820950, 0.320420218319113270233345, 0.266162475996208403028476),
   ("light_skin", 0.766187730821718981921720, 0.582516506513112930498721, 0.503198490520271768389193),
   ("blue_sky", 0.365956333997268901114808, 0.480869609162119904244292, 0.614659337914013947923308),
   ("foliage", 0.355569732510694236360393, 0.423890502831751170287333, 0.253096226815998526227247),
   ("blue_flower", 0.511013679614789051441903, 0.503980382003520466227542, 0.687407741927910209689401),
   ("bluish_green", 0.385836023860504695459639, 0.747757750263048914796116, 0.668550706970759023306528),
   ("orange", 0.863319685762475974577512, 0.483449998047262463618523, 0.179796571015514633495869),
   ("purplish_blue", 0.282686316071752985479293, 0.359530086358149369996084, 0.659542102062758539560150),
   ("moderate_red", 0.762167279620770132808616, 0.328861628345550882634996, 0.381542616746955054463086),
   ("purple", 0.356182936878738642949571, 0.231604140077007469855630, 0.409461136578770257266058),
   ("yellow_green", 0.629963882521570095462948, 0.740501058722563332281652, 0.243356335820451685769683),
   ("orange_yellow", 0.896453285511323971768149, 0.629504276758887537646103, 0.158128535146370680086747),
   ("blue", 0.165592485644282999546206, 0.245680165554016449735997, 0.576338830757840758778343),
   ("green", 0.283356247800201133113518, 0.585493713543917215780255, 0.281738150881347404475008),
   ("red", 0.686759989779952784161310, 0.196160805443987840135378, 0.221459352518039609414302),
   ("yellow", 0.934191186590817124191233, 0.782978964946976607741647, 0.085159738509608035039733),
   ("magenta", 0.737419679935916061452872, 0.329886606665286907791312, 0.588736698017782611458415),
   ("cyan", (-0.369242737158227696259161), 0.536063967421520293221704, 0.652313614783015305320646),
   ("white_95", 0.962254688805857738564953, 0.961886473335449854182855, 0.940819531800798358744942),
   ("neutral_80", 0.786913752015429235342481, 0.792461155347229495582440, 0.788199850671958190950761),
   ("neutral_65", 0.630405881331986273075074, 0.635018417755186859174898, 0.633458969622580303493464),
   ("neutral_50", 0.470275357040106423145431, 0.475847074765247624039688, 0.475164276285760578399930),
   ("neutral_35", 0.326511729828716679158163, 0.331952482017977279493692, 0.333343263685585089461938),
   ("black_20", 0.196635674178738062423122, 0.196200687704149889789562, 0.198355226266496709186526)]

/-- `ITUR_BT709_LINEAR`, colorchecker.rs:155 -/
def iturBt709Linear : List (String × ℚ × ℚ × ℚ) :=
  [("dark_skin", 0.172494903478921379758049, 0.083742275147121236766878, 0.057580802353872279075730),
   ("light_skin", 0.548166740768265214889254, 0.298464057547432659589504, 0.216988329625176945558707),
   ("blue_sky", 0.110273098930456669997113, 0.196749542671626420631270, 0.335908108250348169665500),
   ("foliage", 0.103844003550475294517241, 0.150221251702132713168325, 0.052118125269136880706178),
   ("blue_flower", 0.224421285176510387771032, 0.217722049842185322310328, 0.430240604300889062372448),
   ("bluish_green", 0.123188484025332667393116, 0.519025160746376057474549, 0.404476442342092679105292),
   ("orange", 0.716851845893850314617168, 0.198966677599440922019625, 0.027134324567005527195640),
   ("purplish_blue", 0.064981437260032082203765, 0.106244414012927529400443, 0.392501385490325371829812),
   ("moderate_red", 0.541743677218970431930245, 0.088295085198929423864200, 0.120279009337661432765820),
   ("purple", 0.104220403545023709845907, 0.043809504148107525356437, 0.139587500096980537955815),
   ("yellow_green", 0.354689491376854459936396, 0.507810498429601908654263, 0.048240251298149502967583),
   ("orange_yellow", 0.780501597154235060571636, 0.353995635316927736990777, 0.021500394584380130152956),
   ("blue", 0.023393524095718709610026, 0.049162229966367182454334, 0.291612313280338930621127),
   ("green", 0.065276975492802036260542, 0.301871183593432124148137, 0.064512544950775421725986),
   ("red", 0.429415067688915130794669, 0.031876259266901685318629, 0.040176761147720146949425),
   ("yellow", 0.856872280066656610841846, 0.575290451538240987794381, 0.007843951848158753348272),
   ("magenta", 0.503207817704942828029857, 0.088866832232108616818067, 0.305533197128576683443413),
   ("cyan", (-0.028565807124527942129077), 0.248957498257709852751418, 0.383039755082404953512309),
   ("white_95", 0.916415661839609096972481, 0.915387263895882208331045, 0.870551523454819897729351),
   ("neutral_80", 0.581975197851302139540053, 0.591070453558429576013111, 0.583975993303848417426138),
   ("neutral_65", 0.355252501874878001686398, 0.360925352648451103210192, 0.358979131579965304865709),
   ("neutral_50", 0.187582122734965328625378, 0.192344066513187333944401, 0.191755174044448584158573),
   ("neutral_35", 0.087072682904792975122632, 0.090059781523777859835178, 0.090840626034524529774927),
   ("black_20", 0.032071241713950954244083, 0.031930141044387530535609, 0.032592203788710867595757)]

/-- `ITUR_BT709_ENCODED`, colorchecker.rs:181 -/
def iturBt709Encoded : List (String × ℚ × ℚ × ℚ) :=
  [("dark_skin", 0.399364401721517880972101, 0.261016854025742595091231, 0.205174402005976003193766),
   ("light_skin", 0.739510295218352764479164, 0.538821434392025677695415, 0.453578600192821257408582),
   ("blue_sky", 0.308482538632948055656868, 0.429760338114109630147652, 0.573662026937474700538644),
   ("foliage", 0.297615180559450354103035, 0.369302861827300543673402, 0.191832305355082138875744),
   ("blue_flower", 0.462017634545860866879252, 0.454418635151685901263363, 0.652913392335445097458546),
   ("bluish_green", 0.329306082781160580630342, 0.719149138945576194004161, 0.632306859418109268311525),
   ("orange", 0.847108460125044704369657, 0.432433403892202528062683, 0.117810968477395916487183),
   ("purplish_blue", 0.222183246199042089275011, 0.301714852545919454129830, 0.622483211507415590268977),
   ("moderate_red", 0.735074656929566971896861, 0.269696598474792548216783, 0.324724056687833551038125),
   ("purple", 0.298261456112456802003408, 0.169969753147391350323048, 0.354083900577594423708661),
   ("yellow_green", 0.590333583181095966629925, 0.711146287644402907979213, 0.181887229883310880262925),
   ("orange_yellow", 0.884028028224794204525949, 0.589726432028825464648492, 0.096253391447573000139215),
   ("blue", 0.103810639846817098774778, 0.184290428107921816502923, 0.532190318075471235914620),
   ("green", 0.222839765522818950005401, 0.542087690845776459802607, 0.221138253274817092597360),
   ("red", 0.652263809401795180420436, 0.134108441151345098019121, 0.159694030844691997605977),
   ("yellow", 0.926203156186145459827230, 0.757933097590480331362528, 0.035297783316714390067226),
   ("magenta", 0.707833669549199684389862, 0.270769049729344568611111, 0.545575767625020247031387),
   ("cyan", (-0.128546132060375739580849), 0.488833100744794801784110, 0.614604245882647060028603),
   ("white_95", 0.957669856885714709804347, 0.957136086332364799389438, 0.933536013853776047710653),
   ("neutral_80", 0.762399681620651747948614, 0.768431831507482732135372, 0.763731071874368394603039),
   ("neutral_65", 0.590825759438441511228746, 0.595761137731991907706686, 0.594072765732311158792811),
   ("neutral_50", 0.418527990039832431534705, 0.424399314548215111919660, 0.423677594195949747124530),
   ("neutral_35", 0.267390799285208036195627, 0.272994563120933730893114, 0.274442503452094421767526),
   ("black_20", 0.134749015917235231976079, 0.134285673636640373596052, 0.136450094805407012854559)]

/-- `ALEXA_WIDE_GAMUT_LINEAR`, colorchecker.rs:207 -/
def alexaWideGamutLinear : List (String × ℚ × ℚ × ℚ) :=
  [("dark_skin", 0.137213058279945870898686, 0.082558893532934288228553, 0.063469252755507021834802),
   ("light_skin", 0.448131976818098742842977, 0.293795375618616849688891, 0.234863097684776228613046),
   ("blue_sky", 0.155775724839095436324854, 0.217242203002425360303107, 0.311283282936990757239215),
   ("foliage", 0.111340172657689029378503, 0.131822023876567079314626, 0.067613142864402342446795),
   ("blue_flower", 0.242752350675949690739230, 0.254127078545603679593512, 0.395044704205923580264681),
   ("bluish_green", 0.257913305024443706425785, 0.484960588711348228319054, 0.416633640996035892190008),
   ("orange", 0.509099934908257334420512, 0.188798953825366405689934, 0.064681018666482778534110),
   ("purplish_blue", 0.108212525485730737262458, 0.153429608581970855496479, 0.344220218749182182982338),
   ("moderate_red", 0.377697315249863829755839, 0.110432750805009693984005, 0.122840615085597376632265),
   ("purple", 0.091322757592163850137723, 0.062329728029740794070790, 0.124722324140150442328689),
   ("yellow_green", 0.366160123505095913554186, 0.423979758040928855766794, 0.121941902531434484546757),
   ("orange_yellow", 0.590713892603681900439483, 0.313127627136588426726149, 0.084155337905881547055920),
   ("blue", 0.056624462963746347021754, 0.089464529510759588371016, 0.250879279269294042098437),
   ("green", 0.129272051429859369253705, 0.252774797409109630574875, 0.099842019832596468065233),
   ("red", 0.283663366433296038060519, 0.047925808781932033308948, 0.045702544496744608448768),
   ("yellow", 0.697518460534604978207085, 0.489110977130075175178803, 0.107020727433860110555663),
   ("magenta", 0.371655973159687069706791, 0.140986944408081960045109, 0.276728785537252885973203),
   ("cyan", 0.086874895119720990654955, 0.261552123501663402738160, 0.355939957227403791506504),
   ("white_95", 0.911648134646781072021327, 0.907796105182375190345567, 0.878018053705698742206209),
   ("neutral_80", 0.584634072022727657724772, 0.589528143623551104113290, 0.584996040404322070749288),
   ("neutral_65", 0.357153492842366526716091, 0.360385128213985994616309, 0.359203500928521990420705),
   ("neutral_50", 0.189280123393807092613272, 0.192068421919942611264531, 0.191770056255532700406619),
   ("neutral_35", 0.088250396368890440812471, 0.090082598358478982447650, 0.090658877413833022229639),
   ("black_20", 0.032084024421541845750738, 0.032047962437922267175949, 0.032484604215990184328255)]

/-- `ALEXA_WIDE_GAMUT_ENCODED`, colorchecker.rs:233 -/
def alexaWideGamutEncoded : List (String × ℚ × ℚ × ℚ) :=
  [("dark_skin", 0.363518976106640467893527, 0.313447392487750664535895, 0.288471725763217889948464),
   ("light_skin", 0.485687878962457519893547, 0.441516373072294299184648, 0.418314720070651957506414),
   ("blue_sky", 0.376316147251576360588388, 0.410277129818338137656752, 0.447536203022192657918765),
   ("foliage", 0.342677108259875851103970, 0.359497390375041359078523, 0.294408650707382257838418),
   ("blue_flower", 0.421727094572193927923820, 0.426463640649455189013395, 0.472448090176936452699863),
   ("bluish_green", 0.427995012090144455463303, 0.493998840580603726380104, 0.478030691703853483076614),
   ("orange", 0.499116785697253872999823, 0.395881535291465025405699, 0.290242040284021007856552),
   ("purplish_blue", 0.339859794842281182081223, 0.374780478633934988064169, 0.458031800795150489946650),
   ("moderate_red", 0.467741947843008654128738, 0.341867308943827774569968, 0.352443650832155230823162),
   ("purple", 0.323218859926489743283895, 0.286779887276093214953931, 0.353960358526902774123357),
   ("yellow_green", 0.464493777989795852967347, 0.479865972203110946470161, 0.351711633150909974698806),
   ("orange_yellow", 0.514809384293810623489662, 0.448151837406924602458247, 0.315294918392686751573706),
   ("blue", 0.277883613098220794146442, 0.321219988283784396720932, 0.425132406871337242826314),
   ("green", 0.357541379797264025075521, 0.425911361276844258050289, 0.331934557277378472495144),
   ("red", 0.437867701505738782241650, 0.262719558237701933389729, 0.258473872578539043409762),
   ("yellow", 0.532393161558567751256987, 0.494896342870777328215581, 0.338766491161558658262720),
   ("magenta", 0.466053337044106286146672, 0.366247166746927199643125, 0.435297009357390740635907),
   ("cyan", 0.318370779638559420199329, 0.429446459374782318896280, 0.461531944988240572236293),
   ("white_95", 0.560798190790710804343178, 0.560348278359034446260978, 0.556805106407804339951895),
   ("neutral_80", 0.513716246119833686023526, 0.514597061213167394910784, 0.513781639781872190297918),
   ("neutral_65", 0.461887936494457806979597, 0.462830221320669976670104, 0.462486639207018379593706),
   ("neutral_50", 0.396141830250974880112125, 0.397637896456272454948078, 0.397478800359552353338444),
   ("neutral_35", 0.319893565711201921519802, 0.321888976266371973355973, 0.322508998224383780506486),
   ("black_20", 0.228003355520057876537621, 0.227910013123151955483081, 0.229034789877255673395950)]

/-- `ACES_LINEAR`, colorchecker.rs:415 -/
def acesLinear : List (String × ℚ × ℚ × ℚ) :=
  [("dark_skin", 0.118137965745441650411429, 0.089191271995620102774893, 0.062426737695059311694656),
   ("light_skin", 0.393845863985204713841881, 0.313041470836910362685046, 0.231615172023251714161773),
   ("blue_sky", 0.183299719420037893202746, 0.202316671964609506861876, 0.316847249155878751825099),
   ("foliage", 0.112518588899497368194247, 0.136678789446372794813556, 0.063686136314056271401363),
   ("blue_flower", 0.258178887765929565567546, 0.238657240151752714218958, 0.403548094145784852493364),
   ("bluish_green", 0.324805790708195651905754, 0.472597395803177611206536, 0.412033057457122597888599),
   ("orange", 0.396285979506116492476764, 0.228927528739749946984361, 0.057830167747970964708948),
   ("purplish_blue", 0.138633925033693122808032, 0.129937866319510986201635, 0.355671501121427868774560),
   ("moderate_red", 0.293265597966656521577988, 0.131984649258096109480931, 0.124141268708843552359689),
   ("purple", 0.087270606011186996342488, 0.058386905743434171223161, 0.128557206689700248558594),
   ("yellow_green", 0.359382689243750830243584, 0.450116605740338127095157, 0.103548285875178752712955),
   ("orange_yellow", 0.482787976337926860725958, 0.360395771790454344518650, 0.070872421541996563632004),
   ("blue", 0.080630216247321528921788, 0.070052292504573843157090, 0.260578500830628279061330),
   ("green", 0.155973539594779331274310, 0.257960480745810072367163, 0.090334895698233289018653),
   ("red", 0.208089788900772482138635, 0.068290126085594524130151, 0.046052984457560758313477),
   ("yellow", 0.598906015150443060690577, 0.546223910205388074601274, 0.084331117607613997888549),
   ("magenta", 0.309245208564270901430149, 0.146723764602708584003921, 0.285416719230579263300029),
   ("cyan", 0.150632092062669559195953, 0.236921026642433224518314, 0.361292098180090281989152),
   ("white_95", 0.907925288711187827850324, 0.911189280172333360141579, 0.876225454758221888873493),
   ("neutral_80", 0.585820144905132345058973, 0.589576678454411862162488, 0.584712560025156480314479),
   ("neutral_65", 0.358088174562741390349885, 0.360230837985224372488346, 0.359125851611708568622561),
   ("neutral_50", 0.190146885400545417876828, 0.191861046079931651942019, 0.191746531182468954446207),
   ("neutral_35", 0.088884553821087355918174, 0.089866851812723164139030, 0.090690100863904721251174),
   ("black_20", 0.032109027307168060139109, 0.032006133498748361165820, 0.032511142019034870720429)]

/-- `ACES_ENCODED`, colorchecker.rs:441 -/
def acesEncoded : List (String × ℚ × ℚ × ℚ) :=
  [("dark_skin", 0.118137965745441650411429, 0.089191271995620102774893, 0.062426737695059311694656),
   ("light_skin", 0.393845863985204713841881, 0.313041470836910362685046, 0.231615172023251714161773),
   ("blue_sky", 0.183299719420037893202746, 0.202316671964609506861876, 0.316847249155878751825099),
   ("foliage", 0.112518588899497368194247, 0.136678789446372794813556, 0.063686136314056271401363),
   ("blue_flower", 0.258178887765929565567546, 0.238657240151752714218958, 0.403548094145784852493364),
   ("bluish_green", 0.324805790708195651905754, 0.472597395803177611206536, 0.412033057457122597888599),
   ("orange", 0.396285979506116492476764, 0.228927528739749946984361, 0.057830167747970964708948),
   ("purplish_blue", 0.138633925033693122808032, 0.129937866319510986201635, 0.355671501121427868774560),
   ("moderate_red", 0.293265597966656521577988, 0.131984649258096109480931, 0.124141268708843552359689),
   ("purple", 0.087270606011186996342488, 0.058386905743434171223161, 0.128557206689700248558594),
   ("yellow_green", 0.359382689243750830243584, 0.450116605740338127095157, 0.103548285875178752712955),
   ("orange_yellow", 0.482787976337926860725958, 0.360395771790454344518650, 0.070872421541996563632004),
   ("blue", 0.080630216247321528921788, 0.070052292504573843157090, 0.260578500830628279061330),
   ("green", 0.155973539594779331274310, 0.257960480745810072367163, 0.090334895698233289018653),
   ("red", 0.208089788900772482138635, 0.068290126085594524130151, 0.046052984457560758313477),
   ("yellow", 0.598906015150443060690577, 0.546223910205388074601274, 0.084331117607613997888549),
   ("magenta", 0.309245208564270901430149, 0.146723764602708584003921, 0.285416719230579263300029),
   ("cyan", 0.150632092062669559195953, 0.236921026642433224518314, 0.361292098180090281989152),
   ("white_95", 0.907925288711187827850324, 0.911189280172333360141579, 0.876225454758221888873493),
   ("neutral_80", 0.585820144905132345058973, 0.589576678454411862162488, 0.584712560025156480314479),
   ("neutral_65", 0.358088174562741390349885, 0.360230837985224372488346, 0.359125851611708568622561),
   ("neutral_50", 0.190146885400545417876828, 0.191861046079931651942019, 0.191746531182468954446207),
   ("neutral_35", 0.088884553821087355918174, 0.089866851812723164139030, 0.090690100863904721251174),
   ("black_20", 0.032109027307168060139109, 0.032006133498748361165820, 0.032511142019034870720429)]

/-- `ITUR_BT2020_LINEAR`, colorchecker.rs:1091 -/
def iturBt2020Linear : List (String × ℚ × ℚ × ℚ) :=
  [("dark_skin", 0.138292886347363475074701, 0.089577586278710943923365, 0.061766967577830247937420),
   ("light_skin", 0.451599530270104354556793, 0.314792083171821945875024, 0.229587768634340883000533),
   ("blue_sky", 0.148521269053716653552044, 0.192355418351632195816947, 0.319961820110954031637363),
   ("foliage", 0.116874838369719194486329, 0.145902030886385869479227, 0.061600367511714569646042),
   ("blue_flower", 0.231130006299789136914313, 0.220599651724015632936471, 0.408162468548940005064196),
   ("bluish_green", 0.265714231453095306445533, 0.490372380670155205706351, 0.409947539586885567608476),
   ("orange", 0.516447263840033476967051, 0.232798725507760401187696, 0.053563320949666523573818),
   ("purplish_blue", 0.092754528649379636151551, 0.106645796211432830613575, 0.361938439315873716761729),
   ("moderate_red", 0.374175820245569390465334, 0.119990565209934230139766, 0.124372410716929351903737),
   ("purple", 0.085859976416594638304325, 0.049071993358407041407876, 0.130578044250345776111644),
   ("yellow_green", 0.391836385753276561505487, 0.492008469725660035898329, 0.093711692937229112976283),
   ("orange_yellow", 0.607185749210428116207083, 0.379688125325511938168432, 0.063205522392775451145930),
   ("blue", 0.043496099894424836151963, 0.050136476596127105276324, 0.265876987564680811182427),
   ("green", 0.143150325368506609047259, 0.282826221381173525948327, 0.085415794007454678982150),
   ("red", 0.281653176639313385098973, 0.059439426265292916173877, 0.045826382429685161290500),
   ("yellow", 0.727378140266214168185854, 0.588299486425612472295654, 0.071703591274500558250260),
   ("magenta", 0.358210465258201993243858, 0.119958502808858780142032, 0.289703845108650548390017),
   ("cyan", 0.080645808845583782931143, 0.231304875035945323169528, 0.364491924718032989094496),
   ("white_95", 0.914090511401480121378427, 0.914948885574634496187230, 0.875249444503058304789533),
   ("neutral_80", 0.585056771870232195098538, 0.590361386546861766078109, 0.584567604302095533697070),
   ("neutral_65", 0.357281887171073564424262, 0.360511260459121407606631, 0.359089340111041877001696),
   ("neutral_50", 0.189330897696327604684541, 0.192008337923971317273697, 0.191738602103143973565125),
   ("neutral_35", 0.088219484982271223483252, 0.089862253307899556120653, 0.090710139316699925360332),
   ("black_20", 0.032047344121324691790242, 0.031947413284006680178617, 0.032525394138556006085050)]

/-- `ITUR_BT2020_ENCODED`, colorchecker.rs:1117 -/
def iturBt2020Encoded : List (String × ℚ × ℚ × ℚ) :=
  [("dark_skin", 0.352188083563413134591258, 0.272096965079309915935823, 0.214933757796157087760491),
   ("light_skin", 0.669487413872187242525058, 0.554293599244388812685713, 0.467793196617251050284381),
   ("blue_sky", 0.366910593899510861781721, 0.424413214907414904075722, 0.559099959088948494922988),
   ("foliage", 0.319284867232704994144399, 0.363195054411290130236267, 0.214552435776247107934722),
   ("blue_flower", 0.469503367344256128390612, 0.457698258252790313171943, 0.635298384886838207741278),
   ("bluish_green", 0.506319074522264322979481, 0.698506796776268368276419, 0.636741782767695552180953),
   ("orange", 0.717318020506997222618395, 0.471346737571071372485676, 0.195434072130398261979423),
   ("purplish_blue", 0.277962802653466345415012, 0.302395385876579436690292, 0.596638022175645876821193),
   ("moderate_red", 0.607125290052838995080720, 0.324266490245625649269101, 0.331153554517000459078702),
   ("purple", 0.265085628650729265842756, 0.184056320801139594589557, 0.340682584875743654784230),
   ("yellow_green", 0.621932883645993972443478, 0.699703068606083555813768, 0.279708362416542843931211),
   ("orange_yellow", 0.778995720184800344298992, 0.611787610432609874067111, 0.218203122448601072314034),
   ("blue", 0.169102173772680441921068, 0.186803081480873600650483, 0.506485893795940445016868),
   ("green", 0.359251869274101021112244, 0.523560474555321397893692, 0.264236827982567701322836),
   ("red", 0.522397192323515779932563, 0.209554060763110949761057, 0.175473045505328939519529),
   ("yellow", 0.853335125055805776561613, 0.766599513333642623713615, 0.236730734779945883872188),
   ("magenta", 0.593404551166268445783203, 0.324215591478807574343790, 0.530328078837397964839795),
   ("cyan", 0.254964333443194746120497, 0.469696880752472067932501, 0.598842238181823915965651),
   ("white_95", 0.956462561052563442487440, 0.956908454075041436936999, 0.936039733879866719945539),
   ("neutral_80", 0.764449211356069469047725, 0.767963407400204967068191, 0.764124267115193767097026),
   ("neutral_65", 0.592596269941806363945602, 0.595402327545108023265641, 0.594168507335836482141644),
   ("neutral_50", 0.420693595468656811320329, 0.423988009731831705373395, 0.423657266740668059235020),
   ("neutral_35", 0.269554506206388211353442, 0.272627188184001501003451, 0.274201016262776153809000),
   ("black_20", 0.134670620675863300652608, 0.134342452122747785248080, 0.136232783729566209185435)]

/-- `ACES_CG_LINEAR`, colorchecker.rs:363 -/
def acesCgLinear : List (String × ℚ × ℚ × ℚ) :=
  [("dark_skin", 0.136958104436062544362329, 0.089643073115727486821491, 0.062728584827155445258207),
   ("light_skin", 0.447824981857304127430552, 0.314971831410518821048328, 0.232473106477556035187604),
   ("blue_sky", 0.150098826259045081688015, 0.192356550046498847583720, 0.316427548033242189706726),
   ("foliage", 0.117299930985775860414755, 0.145803954290654375069991, 0.063651909722611255126878),
   ("blue_flower", 0.231551971660423655530181, 0.220727135722761091951583, 0.403333878046831906249992),
   ("bluish_green", 0.271103856135971432728127, 0.489948207379747091572142, 0.410942311229957446538918),
   ("orange", 0.508611875064928109502205, 0.233169895804646809533978, 0.059612680274470669639086),
   ("purplish_blue", 0.094043060653694221517895, 0.106771941023048849706001, 0.355228311242934413627381),
   ("moderate_red", 0.367759925709379043023972, 0.120419780285278554821105, 0.125500416933984448863981),
   ("purple", 0.085228241514191227512498, 0.049181459740360887467059, 0.128637160007779804971051),
   ("yellow_green", 0.392909265156374920557880, 0.491607147792077481263107, 0.103585186757195524265285),
   ("orange_yellow", 0.600267468885434807290835, 0.379884694876196471469143, 0.072551437360750231642115),
   ("blue", 0.044455981533757613077817, 0.050251636192610173170525, 0.260231363972776741366744),
   ("green", 0.145960151783498526256722, 0.282476201416323513537776, 0.089869563477841432619364),
   ("red", 0.275980250109460201191069, 0.059804442076006103512498, 0.047266362133347110396908),
   ("yellow", 0.721962745629650237688679, 0.588230488320747424424439, 0.085824053751429069114565),
   ("magenta", 0.352804699764549756224596, 0.120457786064671945602811, 0.286451538769856239863287),
   ("cyan", 0.084946977963370834396883, 0.231129968399615637331124, 0.360290480546477331902366),
   ("white_95", 0.913966519556086209874479, 0.914924202723351731592061, 0.876278157761282150417514),
   ("neutral_80", 0.585169735947568048217704, 0.590349090781268626138001, 0.584692428315315426701204),
   ("neutral_65", 0.357358385170980008549435, 0.360505007494525742117730, 0.359110556360598354164182),
   ("neutral_50", 0.189397658387073564156822, 0.192003685925913519794150, 0.191732537485383575104336),
   ("neutral_35", 0.088264166141273359134090, 0.089859992318327447380355, 0.090680051875290587637402),
   ("black_20", 0.032046936856974447827007, 0.031947919397201728075597, 0.032510844411955473753917)]

/-- `ACES_CG_ENCODED`, colorchecker.rs:389 -/
def acesCgEncoded : List (String × ℚ × ℚ × ℚ) :=
  [("dark_skin", 0.136958104436062544362329, 0.089643073115727486821491, 0.062728584827155445258207),
   ("light_skin", 0.447824981857304127430552, 0.314971831410518821048328, 0.232473106477556035187604),
   ("blue_sky", 0.150098826259045081688015, 0.192356550046498847583720, 0.316427548033242189706726),
   ("foliage", 0.117299930985775860414755, 0.145803954290654375069991, 0.063651909722611255126878),
   ("blue_flower", 0.231551971660423655530181, 0.220727135722761091951583, 0.403333878046831906249992),
   ("bluish_green", 0.271103856135971432728127, 0.489948207379747091572142, 0.410942311229957446538918),
   ("orange", 0.508611875064928109502205, 0.233169895804646809533978, 0.059612680274470669639086),
   ("purplish_blue", 0.094043060653694221517895, 0.106771941023048849706001, 0.355228311242934413627381),
   ("moderate_red", 0.367759925709379043023972, 0.120419780285278554821105, 0.125500416933984448863981),
   ("purple", 0.085228241514191227512498, 0.049181459740360887467059, 0.128637160007779804971051),
   ("yellow_green", 0.392909265156374920557880, 0.491607147792077481263107, 0.103585186757195524265285),
   ("orange_yellow", 0.600267468885434807290835, 0.379884694876196471469143, 0.072551437360750231642115),
   ("blue", 0.044455981533757613077817, 0.050251636192610173170525, 0.260231363972776741366744),
   ("green", 0.145960151783498526256722, 0.282476201416323513537776, 0.089869563477841432619364),
   ("red", 0.275980250109460201191069, 0.059804442076006103512498, 0.047266362133347110396908),
   ("yellow", 0.721962745629650237688679, 0.588230488320747424424439, 0.085824053751429069114565),
   ("magenta", 0.352804699764549756224596, 0.120457786064671945602811, 0.286451538769856239863287),
   ("cyan", 0.084946977963370834396883, 0.231129968399615637331124, 0.360290480546477331902366),
   ("white_95", 0.913966519556086209874479, 0.914924202723351731592061, 0.876278157761282150417514),
   ("neutral_80", 0.585169735947568048217704, 0.590349090781268626138001, 0.584692428315315426701204),
   ("neutral_65", 0.357358385170980008549435, 0.360505007494525742117730, 0.359110556360598354164182),
   ("neutral_50", 0.189397658387073564156822, 0.192003685925913519794150, 0.191732537485383575104336),
   ("neutral_35", 0.088264166141273359134090, 0.089859992318327447380355, 0.090680051875290587637402),
   ("black_20", 0.032046936856974447827007, 0.031947919397201728075597, 0.032510844411955473753917)]

/-- `DCI_P3_LINEAR`, colorchecker.rs:571 -/
def dciP3Linear : List (String × ℚ × ℚ × ℚ) :=
  [("dark_skin", 0.161428201361069834085527, 0.086874768666696647323455, 0.061131565968838605384938),
   ("light_skin", 0.517014989518822520864205, 0.307276232445176489260774, 0.227609161943648358183978),
   ("blue_sky", 0.121286146851254661438446, 0.193711762260066810981129, 0.323338047552597096512272),
   ("foliage", 0.109400523289900075685210, 0.148570246296172131517110, 0.059221221445429510221725),
   ("blue_flower", 0.224020275298980831024664, 0.217985624691665325070034, 0.413317236428881407128699),
   ("bluish_green", 0.172077753710151992727617, 0.505024997015967036517736, 0.407172764015884758315167),
   ("orange", 0.652237115620557084127995, 0.217242831388609114462440, 0.049390520243757736473800),
   ("purplish_blue", 0.070681595169633071318316, 0.104822716952273409241059, 0.368882248744346330493471),
   ("moderate_red", 0.485537890501885005534177, 0.104320347242497141193596, 0.125143962554192106351181),
   ("purple", 0.096917674393336594729220, 0.045956051564526548269818, 0.132900660715596391492355),
   ("yellow_green", 0.372760406200442040436371, 0.502342313409118945699561, 0.082565833268425092850151),
   ("orange_yellow", 0.726901212098610582934555, 0.369022865229260033093084, 0.055136553288661030447493),
   ("blue", 0.027082220947711344027908, 0.048282435108141411039817, 0.271758075988784819632116),
   ("green", 0.094156426208207133488060, 0.293481832521945706915290, 0.079660660666405258556466),
   ("red", 0.380099430194843490582457, 0.045923125060195801871998, 0.046023995030122485938584),
   ("yellow", 0.820780453226664152843739, 0.585167516124971642810237, 0.057937023367669565621085),
   ("magenta", 0.452229040368868573374073, 0.103533704167815820973431, 0.294955403654097114696242),
   ("cyan", 0.006144858033733435753732, 0.239169020213060357082924, 0.367746811151287045227321),
   ("white_95", 0.916197255110247077425356, 0.915417928669595037938223, 0.874161903248938498833809),
   ("neutral_80", 0.583089504965461191687837, 0.590748203301063257164571, 0.584395606914952736588020),
   ("neutral_65", 0.355952531481381839739697, 0.360724673699477693666893, 0.359042185886434273012213),
   ("neutral_50", 0.188171862102078590872622, 0.192175743338107996027730, 0.191724362584806795606340),
   ("neutral_35", 0.087444947041361575923446, 0.089954340300412063968771, 0.090729107388934998601471),
   ("black_20", 0.032055072486571266343613, 0.031935210137468972302344, 0.032541451750316266466889)]

/-- `DCI_P3_ENCODED`, colorchecker.rs:597 -/
def dciP3Encoded : List (String × ℚ × ℚ × ℚ) :=
  [("dark_skin", 0.495880117379474072425438, 0.390734876349898008207617, 0.341333604180008742812191),
   ("light_skin", 0.775905620635894521797127, 0.635178453288273936472308, 0.565933346338020171195637),
   ("blue_sky", 0.444242078039073617912180, 0.531899066005904974652196, 0.647748574603840832075718),
   ("foliage", 0.426964804370216777229530, 0.480299624858860962905993, 0.337190948435730886156847),
   ("blue_flower", 0.562484436327863601690069, 0.556607654922397498964415, 0.711896302492679655671282),
   ("bluish_green", 0.508215577192005385498419, 0.768934889973331148205204, 0.707807063549614423614287),
   ("orange", 0.848432904674958465740531, 0.555877404368063876560768, 0.314452629741611255909106),
   ("purplish_blue", 0.360932106561589360893549, 0.420002699358165865195502, 0.681425478756686353598582),
   ("moderate_red", 0.757384804124431765259828, 0.419227366165174697432150, 0.449624494374150807107782),
   ("purple", 0.407525692422479490772957, 0.305855592708108914301590, 0.460145367208704858530410),
   ("yellow_green", 0.684172003210275492257608, 0.767361327138231241740129, 0.383164051727551080439582),
   ("orange_yellow", 0.884547796606649838757619, 0.681525373484810681468105, 0.328048693933394086563737),
   ("blue", 0.249566483896737301151347, 0.311720284288229954050564, 0.605867796084387455479714),
   ("green", 0.403020288938643667098205, 0.624055976882369689562324, 0.377921414563734348046609),
   ("red", 0.689321790059775341141801, 0.305771289953643887749024, 0.306029433068807532603017),
   ("yellow", 0.926851989790132613222795, 0.813752598308968622120574, 0.334359690747933757659638),
   ("magenta", 0.736962783757402539741577, 0.418008669672832178232369, 0.625259267201761281818051),
   ("cyan", 0.141067716397365539027220, 0.576820060205347817650079, 0.680617997710531996702343),
   ("white_95", 0.966897370926785515443669, 0.966580960228243468712606, 0.949588260202515410668411),
   ("neutral_80", 0.812639939806089950380397, 0.816728761570863159846567, 0.813339568480946351058947),
   ("neutral_65", 0.672138069975136254186054, 0.675589698778722991256984, 0.674376002162647147919472),
   ("neutral_50", 0.525996155886863103745554, 0.530272920892169485895806, 0.529793535583965247148797),
   ("neutral_35", 0.391719229824002812545558, 0.396005134128991909125972, 0.397313500493816140757275),
   ("black_20", 0.266283899967721893187189, 0.265900494786960428506006, 0.267830699367499924790081)]

/-- `ACES_FROM_SRGB`, colorchecker.rs:1195 -/
def acesFromSrgb : List (String × ℚ × ℚ × ℚ) :=
  [("dark_skin", 0.118140705567927536967510, 0.089196809149613018319336, 0.062428568288180774636942),
   ("light_skin", 0.393855403315271468400738, 0.313060028548820923344209, 0.231621557878521566742336),
   ("blue_sky", 0.183306309901641206749900, 0.202323866229910248604185, 0.316851328974875778854425),
   ("foliage", 0.112522128698727852391670, 0.136685444504183684077958, 0.063688761569907145765335),
   ("blue_flower", 0.258187121961573839978854, 0.238666699775326257570995, 0.403553024120275716235540),
   ("bluish_green", 0.324818641404147290252524, 0.472615484936090179957091, 0.412042120838406300542545),
   ("orange", 0.396293098652481912136381, 0.228946334530818085273296, 0.057835009047901946022119),
   ("purplish_blue", 0.138639147777910809455904, 0.129940986904411803770643, 0.355674275674005391234545),
   ("moderate_red", 0.293270660847415487459955, 0.131996346810202225263708, 0.124144272339214392641971),
   ("purple", 0.087272955193884671487581, 0.058389595427380730496836, 0.128558489085314531230608),
   ("yellow_green", 0.359393679910547381162189, 0.450139683577400251390799, 0.103556831697906082112581),
   ("orange_yellow", 0.482798080509090843381870, 0.360420948912465122226934, 0.070879704377737370868395),
   ("blue", 0.080633454638159615668336, 0.070053177109402828270923, 0.260580058225518329528825),
   ("green", 0.155979658642118990119485, 0.257971586228872840074189, 0.090339699873360240767184),
   ("red", 0.208092703866234463028206, 0.068298326586029009521717, 0.046054655558810109194923),
   ("yellow", 0.598920267800101324695561, 0.546257959227757994291608, 0.084341833886034639489182),
   ("magenta", 0.309251535596891335977432, 0.146734076741339591887225, 0.285420122540493037543996),
   ("cyan", 0.150639305788066640845457, 0.236927450457742466705113, 0.361296721689028821344891),
   ("white_95", 0.907952498585217870896713, 0.911232398653798680854266, 0.876243634665864745691977),
   ("neutral_80", 0.585837837626843827010248, 0.589604266169988622259268, 0.584724331773429084613269),
   ("neutral_65", 0.358098996215596321324171, 0.360247672175418864881635, 0.359133045793348149032909),
   ("neutral_50", 0.190152647674579733383382, 0.191869986047256857464305, 0.191750361857769308082666),
   ("neutral_35", 0.088887256441234727133427, 0.089871020577183630129170, 0.090691895333969388404149),
   ("black_20", 0.032109994202633732052199, 0.032007630292466379695604, 0.032511782310262998807460)]

/-- `BABELCOLOR`, spd.rs:402 -/
def babelcolor : List (String × List ℚ) :=
  [("dark_skin",
    [0.055000000000000000277556, 0.058000000000000009880985, 0.060999999999999963973263,
     0.062000000000000034250380, 0.062000000000000048128168, 0.062000000000000055067062,
     0.062000000000000041189274, 0.062000000000000041189274, 0.062000000000000041189274,
     0.062000000000000034250380, 0.062000000000000034250380, 0.063000000000000042077453,
     0.065000000000000002220446, 0.069999999999999965027975, 0.075999999999999970357045,
     0.079000000000000084043883, 0.080999999999999988675725, 0.084000000000000032973624,
     0.091000000000000066946448, 0.103000000000000035971226, 0.118999999999999994670929,
     0.134000000000000091260333, 0.142999999999999904964909, 0.146999999999999991784350,
     0.150999999999999912070336, 0.158000000000000112576615, 0.168000000000000010436096,
     0.179000000000000047961635, 0.187999999999999917177362, 0.190000000000000057731597,
     0.186000000000000081934459, 0.180999999999999938715689, 0.182000000000000189404048,
     0.186999999999999971800335, 0.195999999999999952038365, 0.208999999999999852562382,
     0.208999999999999852562382, 0.208999999999999852562382, 0.208999999999999852562382,
     0.208999999999999852562382]),
   ("light_skin",
    [0.117000000000000062283512, 0.142999999999999849453758, 0.174999999999999850119892,
     0.190999999999999919841898, 0.195999999999999868771638, 0.199000000000000037969627,
     0.203999999999999848121490, 0.213000000000000050404125, 0.227999999999999869437772,
     0.251000000000000000888178, 0.279999999999999860111899, 0.308999999999999663824468,
     0.329000000000000070166095, 0.333000000000000018207658, 0.314999999999999835686992,
     0.285999999999999920952121, 0.272999999999999687361196, 0.275999999999999856559185,
     0.276999999999999801936212, 0.288999999999999868105505, 0.339000000000000134559031,
     0.420000000000000317523785, 0.487999999999999767297254, 0.525000000000000022204460,
     0.546000000000000262900812, 0.562000000000000055067062, 0.578000000000000180300219,
     0.594999999999999529265438, 0.611999999999999877431378, 0.624999999999999777955395,
     0.638000000000000122568622, 0.655999999999999916511229, 0.678000000000000491162666,
     0.700000000000000066613381, 0.716999999999999082511692, 0.734000000000000651922960,
     0.734000000000000651922960, 0.734000000000000651922960, 0.734000000000000651922960,
     0.734000000000000651922960]),
   ("blue_sky",
    [0.129999999999999921174165, 0.176999999999999935162975, 0.251000000000000222932783,
     0.305999999999999716671084, 0.324000000000000065725203, 0.329999999999999960031971,
     0.333000000000000295763414, 0.330999999999999738875545, 0.323000000000000175859327,
     0.311000000000000054178884, 0.297999999999999987121413, 0.285000000000000197619698,
     0.269000000000000016875390, 0.249999999999999972244424, 0.231000000000000010880186,
     0.214000000000000051292304, 0.199000000000000010214052, 0.184999999999999859001676,
     0.168999999999999872546397, 0.157000000000000000666134, 0.148999999999999993560706,
     0.145000000000000017763568, 0.142000000000000181632487, 0.140999999999999930944128,
     0.140999999999999986455279, 0.141000000000000014210855, 0.142999999999999904964909,
     0.146999999999999991784350, 0.152000000000000023980817, 0.154000000000000081268325,
     0.150000000000000133226763, 0.143999999999999961364239, 0.136000000000000009769963,
     0.132000000000000061728400, 0.134999999999999925615057, 0.147000000000000102806652,
     0.147000000000000102806652, 0.147000000000000102806652, 0.147000000000000102806652,
     0.147000000000000102806652]),
   ("foliage",
    [0.050999999999999975908160, 0.053999999999999985511590, 0.056000000000000056676885,
     0.056999999999999974298337, 0.058000000000000065392136, 0.058999999999999955258012,
     0.060000000000000011657342, 0.060999999999999977851051, 0.062000000000000013433699,
     0.063000000000000028199665, 0.064999999999999988342658, 0.067000000000000003996803,
     0.075000000000000038857806, 0.100999999999999950928142, 0.144999999999999823474539,
     0.178000000000000102584607, 0.183999999999999941380224, 0.170000000000000123234756,
     0.148999999999999965805131, 0.133000000000000090372154, 0.121999999999999969579889,
     0.115000000000000046629367, 0.108999999999999985789145, 0.104999999999999968358644,
     0.104000000000000009103829, 0.105999999999999955369034, 0.109000000000000069055872,
     0.112000000000000030087044, 0.113999999999999976352250, 0.113999999999999934718886,
     0.112000000000000016209256, 0.112000000000000043964832, 0.115000000000000060507155,
     0.120000000000000037192471, 0.124999999999999986122212, 0.130000000000000059952043,
     0.130000000000000059952043, 0.130000000000000059952043, 0.130000000000000059952043,
     0.130000000000000059952043]),
   ("blue_flower",
    [0.143999999999999905853088, 0.198000000000000009325873, 0.293999999999999983568699,
     0.374999999999999944488849, 0.407999999999999696242980, 0.420999999999999818811602,
     0.426000000000000156319402, 0.425999999999999989785948, 0.419000000000000205613304,
     0.403000000000000246913601, 0.379000000000000059063865, 0.345999999999999807709372,
     0.310999999999999998667732, 0.281000000000000138555833, 0.254000000000000114575016,
     0.228999999999999925837102, 0.214000000000000162314606, 0.208000000000000018207658,
     0.202000000000000040634163, 0.193999999999999978017584, 0.192999999999999838351528,
     0.200000000000000149880108, 0.214000000000000273336909, 0.230000000000000065503158,
     0.240999999999999769961789, 0.253999999999999781508109, 0.278999999999999859223720,
     0.313000000000000111466392, 0.348000000000000253574939, 0.366000000000000047517545,
     0.365999999999999992006394, 0.358999999999999763744540, 0.357999999999999929389816,
     0.364999999999999880095913, 0.377000000000000390354415, 0.398000000000000075939255,
     0.398000000000000075939255, 0.398000000000000075939255, 0.398000000000000075939255,
     0.398000000000000075939255]),
   ("bluish_green",
    [0.136000000000000009769963, 0.179000000000000075717210, 0.246999999999999914068738,
     0.297000000000000152766688, 0.319999999999999840127884, 0.336999999999999855226918,
     0.355000000000000204281037, 0.380999999999999949817919, 0.419000000000000039079850,
     0.465999999999999747757329, 0.509999999999999897859482, 0.545999999999999596766997,
     0.566999999999999726441047, 0.574000000000000065725203, 0.568999999999999728217404,
     0.550999999999999490185587, 0.524000000000000687450097, 0.487999999999999489741498,
     0.445000000000000117683641, 0.399999999999999911182158, 0.350000000000000144328993,
     0.298999999999999599431533, 0.252000000000000001776357, 0.221000000000000057509553,
     0.203999999999999875877066, 0.195999999999999841016063, 0.190999999999999975353049,
     0.187999999999999750643909, 0.190999999999999919841898, 0.198999999999999926947325,
     0.211999999999999855226918, 0.223000000000000003774758, 0.231999999999999928501637,
     0.232999999999999901634240, 0.228999999999999925837102, 0.228999999999999981348253,
     0.228999999999999981348253, 0.228999999999999981348253, 0.228999999999999981348253,
     0.228999999999999981348253]),
   ("orange",
    [0.054000000000000103472786, 0.054000000000000034083847, 0.052999999999999998501199,
     0.054000000000000027144953, 0.054000000000000054900529, 0.055000000000000021094237,
     0.054999999999999979460874, 0.054999999999999979460874, 0.056000000000000035860204,
     0.056999999999999953481655, 0.058000000000000051514348, 0.060999999999999984789945,
     0.068000000000000018762769, 0.089000000000000023536728, 0.124999999999999972244424,
     0.153999999999999998001599, 0.174000000000000154543045, 0.199000000000000065725203,
     0.247999999999999970468068, 0.335000000000000186517468, 0.444000000000000172306613,
     0.538000000000000033750780, 0.587000000000000188293825, 0.594999999999999418243135,
     0.591000000000000080824236, 0.586999999999999744204615, 0.583999999999999630517777,
     0.583999999999999408473172, 0.590000000000000079936058, 0.602999999999999980460075,
     0.619999999999999773514503, 0.638999999999999901412195, 0.655000000000000026645353,
     0.663000000000000255795385, 0.663000000000000366817687, 0.667000000000000925481913,
     0.667000000000000925481913, 0.667000000000000925481913, 0.667000000000000925481913,
     0.667000000000000925481913]),
   ("purplish_blue",
    [0.121999999999999969579889, 0.164000000000000006883383, 0.228999999999999981348253,
     0.285999999999999809929818, 0.326999999999999790833982, 0.360999999999999932054351,
     0.387999999999999900524017, 0.400000000000000077715612, 0.392000000000000126121336,
     0.361999999999999932942529, 0.316000000000000336175532, 0.259999999999999953370633,
     0.208999999999999741540080, 0.168000000000000176969550, 0.138000000000000067057471,
     0.117000000000000034527936, 0.104000000000000036859404, 0.096000000000000029753977,
     0.090000000000000010547119, 0.086000000000000006994405, 0.084000000000000005218048,
     0.084000000000000046851412, 0.084000000000000019095836, 0.084000000000000046851412,
     0.084000000000000046851412, 0.085000000000000019984014, 0.089999999999999996669331,
     0.097999999999999962141395, 0.109000000000000027422509, 0.123000000000000039857007,
     0.142999999999999932720485, 0.168999999999999761524094, 0.205000000000000071054274,
     0.243999999999999828137476, 0.287000000000000421440660, 0.331999999999999961808328,
     0.331999999999999961808328, 0.331999999999999961808328, 0.331999999999999961808328,
     0.331999999999999961808328]),
   ("moderate_red",
    [0.096000000000000029753977, 0.115000000000000032751579, 0.131000000000000060840222,
     0.134999999999999897859482, 0.133000000000000007105427, 0.131999999999999978461673,
     0.129999999999999948929741, 0.128000000000000002664535, 0.124999999999999958366637,
     0.120000000000000023314684, 0.114999999999999991118216, 0.109999999999999917288385,
     0.104999999999999982236432, 0.099999999999999963917752, 0.095000000000000098254738,
     0.093000000000000040967230, 0.091999999999999984567900, 0.093000000000000068722805,
     0.096000000000000001998401, 0.108000000000000082045482, 0.155999999999999805488926,
     0.265000000000000013322676, 0.399000000000000465405492, 0.499999999999999777955395,
     0.556000000000000271782596, 0.578999999999999959143793, 0.588000000000000189182003,
     0.591000000000000191846539, 0.593000000000000082600593, 0.594000000000000083488771,
     0.597999999999999753974578, 0.601999999999999979571896, 0.607000000000000206057393,
     0.609000000000000207833750, 0.609000000000000540900658, 0.609999999999999875655021,
     0.609999999999999875655021, 0.609999999999999875655021, 0.609999999999999875655021,
     0.609999999999999875655021]),
   ("purple",
    [0.091999999999999929056749, 0.116000000000000103028697, 0.145999999999999990896171,
     0.168999999999999789279670, 0.178000000000000074829032, 0.172999999999999848343535,
     0.158000000000000084821039, 0.139000000000000123456800, 0.119000000000000036304293,
     0.101000000000000048072657, 0.087000000000000021760371, 0.075000000000000052735594,
     0.065999999999999947597473, 0.060000000000000032474023, 0.056000000000000056676885,
     0.052999999999999949928942, 0.050999999999999989785948, 0.050999999999999955091479,
     0.051999999999999997613020, 0.052000000000000011490808, 0.050999999999999955091479,
     0.052000000000000004551914, 0.057999999999999989064303, 0.072999999999999967692510,
     0.095999999999999974242826, 0.118999999999999994670929, 0.140999999999999986455279,
     0.166000000000000091926466, 0.193999999999999950262008, 0.226999999999999868549594,
     0.265000000000000235367281, 0.308999999999999663824468, 0.355000000000000148769885,
     0.396000000000000240696352, 0.435999999999999776623127, 0.477999999999999924948924,
     0.477999999999999924948924, 0.477999999999999924948924, 0.477999999999999924948924,
     0.477999999999999924948924]),
   ("yellow_green",
    [0.061000000000000040301096, 0.060999999999999984789945, 0.061999999999999992617017,
     0.063000000000000028199665, 0.064000000000000001332268, 0.065999999999999975353049,
     0.069000000000000033528735, 0.075000000000000066613381, 0.084999999999999964472863,
     0.105000000000000037747583, 0.138999999999999984678922, 0.192000000000000087263530,
     0.271000000000000407229805, 0.375999999999999834354725, 0.475999999999999645616811,
     0.531000000000000138555833, 0.549000000000000154543045, 0.545999999999999596766997,
     0.527999999999999469757483, 0.504000000000000114575016, 0.470999999999999752198221,
     0.427999999999999880540003, 0.380999999999999894306768, 0.346999999999999753086399,
     0.326999999999999846345133, 0.317999999999999838351528, 0.311999999999999555466701,
     0.310000000000000053290705, 0.314000000000000056843419, 0.327000000000000012878587,
     0.345000000000000195399252, 0.362999999999999822808405, 0.375999999999999889865876,
     0.380999999999999949817919, 0.378000000000000058175686, 0.378999999999999781508109,
     0.378999999999999781508109, 0.378999999999999781508109, 0.378999999999999781508109,
     0.378999999999999781508109]),
   ("orange_yellow",
    [0.062999999999999972688514, 0.063000000000000000444089, 0.062999999999999972688514,
     0.063999999999999973576692, 0.063999999999999973576692, 0.064000000000000042965631,
     0.064999999999999946709295, 0.065999999999999947597473, 0.067000000000000059507954,
     0.067999999999999991007194, 0.071000000000000063060668, 0.076000000000000039745984,
     0.087000000000000049515947, 0.125000000000000000000000, 0.206000000000000127453603,
     0.305000000000000048849813, 0.382999999999999785060822, 0.430999999999999883204538,
     0.468999999999999916955318, 0.517999999999999904964909, 0.568000000000000504485342,
     0.606999999999999872990486, 0.627999999999999891642233, 0.637000000000000232702746,
     0.639999999999999902300374, 0.641999999999999793054428, 0.644999999999999462652056,
     0.647999999999999465316591, 0.651000000000000134114941, 0.652999999999999247712879,
     0.657000000000000361488617, 0.664000000000000811795076, 0.673000000000000708766379,
     0.679999999999999715782906, 0.684000000000000385469434, 0.687999999999999833910636,
     0.687999999999999833910636, 0.687999999999999833910636, 0.687999999999999833910636,
     0.687999999999999833910636]),
   ("blue",
    [0.065999999999999975353049, 0.079000000000000084043883, 0.101999999999999951816321,
     0.145999999999999990896171, 0.200000000000000038857806, 0.244000000000000022426505,
     0.282000000000000028421709, 0.308999999999999941380224, 0.307999999999999940492046,
     0.278000000000000191402449, 0.231000000000000094146912, 0.177999999999999963806729,
     0.129999999999999893418590, 0.093999999999999944710893, 0.069999999999999951150187,
     0.054000000000000006328271, 0.046000000000000033917313, 0.042000000000000051181281,
     0.038999999999999993005595, 0.038000000000000005995204, 0.037999999999999999056310,
     0.038000000000000026811886, 0.038000000000000033750780, 0.039000000000000013822277,
     0.038999999999999986066701, 0.039999999999999980015986, 0.040999999999999987843058,
     0.042000000000000009547918, 0.044000000000000025202063, 0.044999999999999984456878,
     0.046000000000000033917313, 0.046000000000000033917313, 0.048000000000000014876989,
     0.052000000000000039246384, 0.056999999999999988176125, 0.065000000000000002220446,
     0.065000000000000002220446, 0.065000000000000002220446, 0.065000000000000002220446,
     0.065000000000000002220446]),
   ("green",
    [0.051999999999999990674127, 0.052999999999999991562305, 0.054000000000000034083847,
     0.054999999999999986399768, 0.056999999999999995115019, 0.059000000000000003830269,
     0.060999999999999943156581, 0.065999999999999961475261, 0.075000000000000052735594,
     0.092999999999999985456078, 0.124999999999999902855485, 0.177999999999999991562305,
     0.246000000000000079714013, 0.307000000000000106137321, 0.337000000000000188293825,
     0.333999999999999852562382, 0.316999999999999948485652, 0.292999999999999816147067,
     0.262000000000000343725048, 0.230000000000000037747583, 0.198000000000000120348176,
     0.164999999999999980015986, 0.135000000000000036637360, 0.114999999999999991118216,
     0.103999999999999981348253, 0.097999999999999976019183, 0.093999999999999986344257,
     0.091999999999999984567900, 0.093000000000000068722805, 0.096999999999999975131004,
     0.101999999999999896305170, 0.107999999999999984900967, 0.113000000000000044853010,
     0.115000000000000004996004, 0.113999999999999934718886, 0.113999999999999976352250,
     0.113999999999999976352250, 0.113999999999999976352250, 0.113999999999999976352250,
     0.113999999999999976352250]),
   ("red",
    [0.049999999999999988897770, 0.049000000000000036581849, 0.048000000000000021815882,
     0.046999999999999986233234, 0.046999999999999979294341, 0.046999999999999979294341,
     0.046999999999999951538765, 0.046999999999999958477659, 0.045999999999999978406162,
     0.044999999999999984456878, 0.043999999999999990507593, 0.044000000000000018263169,
     0.044999999999999998334665, 0.046000000000000020039526, 0.047000000000000013988810,
     0.047999999999999987121413, 0.049000000000000001887379, 0.049999999999999981958876,
     0.054000000000000047961635, 0.059999999999999983901766, 0.071999999999999939048756,
     0.103999999999999995226041, 0.178000000000000047073456, 0.311999999999999777511306,
     0.467000000000000026201263, 0.580999999999999516830940, 0.643999999999999683808483,
     0.674999999999999933386619, 0.690000000000000834887715, 0.698000000000000175859327,
     0.705999999999999405808637, 0.714999999999999968913755, 0.723999999999999532818151,
     0.730000000000000426325641, 0.734000000000001096012170, 0.737999999999999545252649,
     0.737999999999999545252649, 0.737999999999999545252649, 0.737999999999999545252649,
     0.737999999999999545252649]),
   ("yellow",
    [0.057999999999999996003197, 0.053999999999999999389377, 0.052000000000000025368596,
     0.052000000000000011490808, 0.052999999999999970745623, 0.054000000000000006328271,
     0.056000000000000021982416, 0.058999999999999969135800, 0.067000000000000045630166,
     0.080999999999999947042362, 0.106999999999999984012788, 0.151999999999999968469666,
     0.224999999999999922284388, 0.336000000000000242916798, 0.462000000000000132782674,
     0.559000000000000274447132, 0.616000000000000214050999, 0.649999999999999689137553,
     0.672000000000000707878201, 0.693999999999999950262008, 0.710000000000000186517468,
     0.723000000000000087041485, 0.731000000000000427213820, 0.739000000000000101252340,
     0.745999999999999774402681, 0.751999999999999668709449, 0.757999999999999451993915,
     0.763999999999999457322986, 0.768999999999998684607760, 0.771000000000000351718654,
     0.776000000000000023092639, 0.781999999999999806377105, 0.789999999999999813482532,
     0.796000000000000262900812, 0.798999999999999599431533, 0.803999999999999714894727,
     0.803999999999999714894727, 0.803999999999999714894727, 0.803999999999999714894727,
     0.803999999999999714894727]),
   ("magenta",
    [0.144999999999999878985690, 0.195000000000000200950367, 0.282999999999999807265283,
     0.346000000000000029753977, 0.361999999999999988453681, 0.354000000000000036859404,
     0.333999999999999963584685, 0.305999999999999716671084, 0.276000000000000023092639,
     0.248000000000000137001521, 0.217999999999999971578291, 0.190000000000000168753900,
     0.168000000000000121458399, 0.149000000000000021316282, 0.127000000000000057287508,
     0.106999999999999956257213, 0.099999999999999963917752, 0.102000000000000021205260,
     0.103999999999999981348253, 0.108999999999999958033570, 0.137000000000000093924868,
     0.199999999999999983346655, 0.290000000000000035527137, 0.400000000000000299760217,
     0.516000000000000236255460, 0.614999999999999769073611, 0.687000000000000277111667,
     0.732000000000000095035091, 0.759999999999999786837179, 0.774000000000000576427794,
     0.783000000000000362376795, 0.792999999999999705124765, 0.803000000000000491162666,
     0.812000000000000610178574, 0.817000000000000170530257, 0.824999999999999733546474,
     0.824999999999999733546474, 0.824999999999999733546474, 0.824999999999999733546474,
     0.824999999999999733546474]),
   ("cyan",
    [0.108000000000000026534330, 0.140999999999999958699703, 0.192000000000000031752379,
     0.236000000000000070832229, 0.260999999999999787725358, 0.285999999999999976463272,
     0.316999999999999726441047, 0.352999999999999813926621, 0.390000000000000068833828,
     0.426000000000000045297099, 0.445999999999999896527214, 0.444000000000000061284311,
     0.423000000000000042632564, 0.385000000000000008881784, 0.336999999999999966249220,
     0.282999999999999862776434, 0.230999999999999927613459, 0.184999999999999747979373,
     0.145999999999999990896171, 0.117999999999999855004873, 0.100999999999999978683718,
     0.089999999999999913402604, 0.082000000000000017319479, 0.076000000000000039745984,
     0.073999999999999968580688, 0.072999999999999981570298, 0.072999999999999967692510,
     0.073999999999999954702901, 0.076000000000000039745984, 0.077000000000000012878587,
     0.076000000000000025868196, 0.075000000000000066613381, 0.072999999999999953814722,
     0.071999999999999994559907, 0.073999999999999968580688, 0.079000000000000084043883,
     0.079000000000000084043883, 0.079000000000000084043883, 0.079000000000000084043883,
     0.079000000000000084043883]),
   ("white_95",
    [0.188999999999999501731907, 0.255000000000000059952043, 0.423000000000000209166018,
     0.660000000000000142108547, 0.811000000000000498268093, 0.861999999999999544364471,
     0.876999999999999113597937, 0.884000000000000230038211, 0.890999999999999348077040,
     0.896000000000000573763259, 0.899000000000000354383189, 0.904000000000000247801779,
     0.906999999999999584332500, 0.909000000000000252242671, 0.911000000000000587085935,
     0.909999999999999698019337, 0.911000000000000587085935, 0.914000000000000256683563,
     0.912999999999999922728477, 0.916000000000000702549130, 0.915000000000000035527137,
     0.916000000000000369482223, 0.914000000000000922817378, 0.915000000000000035527137,
     0.918000000000000038191672, 0.919000000000000594191363, 0.921000000000000262900812,
     0.923000000000000708766379, 0.924000000000000043520743, 0.921999999999999819699781,
     0.922000000000000485833596, 0.925000000000000488498131, 0.927000000000000268229883,
     0.930000000000000048849813, 0.929999999999999715782906, 0.933000000000000717648163,
     0.933000000000000717648163, 0.933000000000000717648163, 0.933000000000000717648163,
     0.933000000000000717648163]),
   ("neutral_80",
    [0.171000000000000096367359, 0.232000000000000122790667, 0.364999999999999880095913,
     0.507000000000000117239551, 0.566999999999999504396442, 0.582999999999999296562692,
     0.588000000000000522248911, 0.589999999999999635846848, 0.590999999999999747757329,
     0.589999999999999857891453, 0.587999999999999856115096, 0.588000000000000189182003,
     0.588999999999999634958670, 0.588999999999999745980972, 0.591000000000000302868841,
     0.589999999999999857891453, 0.589999999999999413802243, 0.589999999999999635846848,
     0.588999999999999301891762, 0.591000000000000413891144, 0.590000000000000079936058,
     0.589999999999999413802243, 0.586999999999999522160010, 0.585000000000000186517468,
     0.582999999999999740651901, 0.579999999999999626965064, 0.578000000000000069277917,
     0.575999999999999734434653, 0.574000000000000176747506, 0.571999999999999841904241,
     0.570999999999999841016063, 0.568999999999999395150496, 0.567999999999999838351528,
     0.568000000000000504485342, 0.565999999999999725552868, 0.565999999999999614530566,
     0.565999999999999614530566, 0.565999999999999614530566, 0.565999999999999614530566,
     0.565999999999999614530566]),
   ("neutral_65",
    [0.144000000000000016875390, 0.191999999999999976241227, 0.272000000000000352606833,
     0.330999999999999849897847, 0.350000000000000088817842, 0.356999999999999539923579,
     0.361000000000000431654712, 0.362999999999999767297254, 0.362999999999999767297254,
     0.361000000000000209610107, 0.358999999999999874766843, 0.357999999999999984900967,
     0.358000000000000040412118, 0.359000000000000041300297, 0.359999999999999875655021,
     0.359999999999999986677324, 0.361000000000000376143561, 0.361000000000000043076653,
     0.359999999999999820143870, 0.361999999999999988453681, 0.362000000000000099475983,
     0.361000000000000542677014, 0.358999999999999652722238, 0.357999999999999707345211,
     0.354999999999999926725280, 0.352000000000000090594199, 0.350000000000000088817842,
     0.347999999999999809485729, 0.345000000000000306421555, 0.343000000000000193622895,
     0.339999999999999913402604, 0.338000000000000078159701, 0.335000000000000242028619,
     0.333999999999999630517777, 0.332000000000000350386387, 0.330999999999999849897847,
     0.330999999999999849897847, 0.330999999999999849897847, 0.330999999999999849897847,
     0.330999999999999849897847]),
   ("neutral_50",
    [0.105000000000000009992007, 0.131000000000000005329071, 0.163000000000000005995204,
     0.179999999999999854560784, 0.185999999999999998667732, 0.190000000000000029976022,
     0.192999999999999838351528, 0.194000000000000033528735, 0.193999999999999922506433,
     0.191999999999999948485652, 0.191000000000000058619776, 0.190999999999999864330746,
     0.190999999999999864330746, 0.191999999999999865218925, 0.192000000000000059507954,
     0.192000000000000087263530, 0.192000000000000059507954, 0.192000000000000087263530,
     0.192000000000000087263530, 0.192999999999999949373830, 0.192000000000000087263530,
     0.192000000000000115019105, 0.191000000000000058619776, 0.188999999999999862554390,
     0.187999999999999972688514, 0.185999999999999970912157, 0.184000000000000052402527,
     0.182000000000000244915199, 0.180999999999999855448962, 0.179000000000000075717210,
     0.177999999999999963806729, 0.175999999999999878763646, 0.174000000000000126787469,
     0.173000000000000042632564, 0.171999999999999958477659, 0.170999999999999985345056,
     0.170999999999999985345056, 0.170999999999999985345056, 0.170999999999999985345056,
     0.170999999999999985345056]),
   ("neutral_35",
    [0.068000000000000032640557, 0.077000000000000012878587, 0.084000000000000005218048,
     0.087000000000000049515947, 0.089000000000000023536728, 0.089999999999999941158180,
     0.092000000000000012323476, 0.092000000000000067834627, 0.091000000000000080824236,
     0.089999999999999941158180, 0.089999999999999996669331, 0.089999999999999968913755,
     0.089999999999999968913755, 0.089999999999999968913755, 0.089999999999999968913755,
     0.089999999999999968913755, 0.089999999999999968913755, 0.089999999999999968913755,
     0.089999999999999968913755, 0.089999999999999982791543, 0.089999999999999927280392,
     0.088999999999999968025577, 0.088999999999999940270001, 0.087999999999999953259611,
     0.087000000000000077271523, 0.086000000000000006994405, 0.085999999999999965361042,
     0.084999999999999964472863, 0.084000000000000060729199, 0.084000000000000019095836,
     0.083000000000000045963233, 0.082999999999999990452082, 0.081999999999999920174965,
     0.080999999999999974797937, 0.080999999999999960920150, 0.080999999999999933164574,
     0.080999999999999933164574, 0.080999999999999933164574, 0.080999999999999933164574,
     0.080999999999999933164574]),
   ("black_20",
    [0.030999999999999999777955, 0.032000000000000014543922, 0.032000000000000000666134,
     0.032999999999999959920949, 0.032999999999999966859843, 0.032999999999999987676524,
     0.033000000000000001554312, 0.033000000000000001554312, 0.032000000000000035360603,
     0.032000000000000014543922, 0.032000000000000000666134, 0.031999999999999986788346,
     0.031999999999999986788346, 0.031999999999999986788346, 0.031999999999999986788346,
     0.031999999999999986788346, 0.031999999999999986788346, 0.031999999999999986788346,
     0.031999999999999986788346, 0.031999999999999986788346, 0.031999999999999986788346,
     0.031999999999999986788346, 0.031999999999999986788346, 0.031999999999999986788346,
     0.031999999999999986788346, 0.031999999999999986788346, 0.031999999999999986788346,
     0.031999999999999986788346, 0.031999999999999986788346, 0.031999999999999986788346,
     0.031999999999999986788346, 0.031999999999999986788346, 0.031999999999999986788346,
     0.031999999999999986788346, 0.031999999999999986788346, 0.032999999999999973798737,
     0.032999999999999973798737, 0.032999999999999973798737, 0.032999999999999973798737,
     0.032999999999999973798737])]

end CS.Conformance
