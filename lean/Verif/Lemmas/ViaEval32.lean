import Verif.Lemmas.ViaEval
import Verif.Lemmas.TripEval32

/-!
# Evaluation of the grey and detour checks in b32
The conversion matrices between the ten spaces in units of 2^-57, and the integer checks on them.
-/

namespace CS.Tripb32

set_option maxHeartbeats 4000000

/-- the ten spaces -/
def spaces : List (ColorSpaceRGB (FP F)) := [srgb, adobeRgb1998, alexaWideGamut, aces, srgbDrv, bt709, bt2020, dciP3, dciP3D65, acesCg]

/-- from `srgb` to each of the ten spaces -/
def conv_srgb : List (Matrix33 ℤ) := [
  ⟨144114011254816768, 14495514624, 3341484556288,
    3119958196224, 144120994871640064, (-1143535042560),
    55566139392, 1717986918400, 144115720651800576⟩,
  ⟨103067910750076928, 41056339706773504, 6833292967936,
    (-11711167856640), 144122025663791104, (-2684354560),
    (-4020357824512), 5932262516326400, 138177558997893120⟩,
  ⟨90988933705367552, 39028208904962048, 14111069953851392,
    5296726541860864, 114293658181697536, 24519031989993472,
    2498780834299904, 21443650722463744, 120164990144479232⟩,
  ⟨63350960889528320, 55330053629673472, 25441045504327680,
    12904016639950848, 117417851752546304, 13789463876468736,
    2505757203365888, 15670958052343808, 125930820530601984⟩,
  ⟨144130323540606976, 2684354560, 9573482102784,
    (-12016941006848), 144121493087846400, (-795642691584),
    (-3470602010624), 8589934592, 144110240273530880⟩,
  ⟨144130323540606976, 2684354560, 9573482102784,
    (-12016941006848), 144121493087846400, (-795642691584),
    (-3470602010624), 8589934592, 144110240273530880⟩,
  ⟨90423810498494464, 47456755805847552, 6247605457649664,
    9947929162809344, 132525536655179776, 1637354678779904,
    2358335135285248, 12684610383118336, 129064514569109504⟩,
  ⟨126243047473152000, 17592901156470784, 300102249873408,
    5080812093440000, 139011186380242944, 17795391684608,
    2357192405549056, 9190161640325120, 132560076782174208⟩,
  ⟨118539542591438848, 25587048622587904, 7735236100096,
    4772668054175744, 139337500815523840, (-453387485184),
    2458092998492160, 10434028192661504, 131215356881534976⟩,
  ⟨88359589086494720, 49169511454081024, 6598650314620928,
    10078568109309952, 132312626536382464, 1719699402391552,
    2949031919616000, 15386988773376000, 125771631862743040⟩]
theorem conv_srgb_ok : @convCheck F N 57 srgb spaces conv_srgb = true := by krefl

/-- from `adobeRgb1998` to each of the ten spaces -/
def conv_adobeRgb1998 : List (Matrix33 ℤ) := [
  ⟨201503097975996416, (-57400799096995840), (-5733781340160),
    19686049710080, 144107474314592256, (-928786677760),
    4881230331904, (-6186348486590464), 150308067060219904⟩,
  ⟨144115995529707520, 546803023872, 609885356032,
    (-1056830390272), 144114346262265856, 264677359616,
    (-385473314816), 282394099712, 144114758579126272⟩,
  ⟨127227179099488256, 2178043145617408, 14711645968269312,
    7418955782160384, 111121386746937344, 25572432848879616,
    3500130716090368, 15286901002993664, 125328099180019712⟩,
  ⟨88585315387703296, 29000218330529792, 26530242768142336,
    18055600130752512, 111676021643673600, 14381358688239616,
    3509463411589120, 9264350757912576, 131341671869710336⟩,
  ⟨201525912842272768, (-57407572260421632), 768799145984,
    (-1479750451200), 144113968305143808, (-563714457600),
    (-49392123904), (-6186419353550848), 150302363343650816⟩,
  ⟨201525912842272768, (-57407572260421632), 768799145984,
    (-1479750451200), 144113968305143808, (-563714457600),
    (-49392123904), (-6186419353550848), 150302363343650816⟩,
  ⟨126437626671529984, 11168593228070912, 6510354376949760,
    13923535575580672, 128481618787565568, 1707314729975808,
    3303121371529216, 6202422938566656, 134610013132947456⟩,
  ⟨176517434969161728, (-32704140144541696), 304959857885184,
    7118870712156160, 136974813536190464, 18490907951104,
    3301269166882816, 2558636572278784, 138255778942287872⟩,
  ⟨165747100099805184, (-21629813932425216), 536870912000,
    6688058648821760, 137424634051035136, (-522643832832),
    3442437762580480, 3819946060546048, 136853265961713664⟩,
  ⟨123551606217113600, 13688305585487872, 6876622745501696,
    14106180133584896, 128213166151696384, 1793189648269312,
    4129223165870080, 8810686247337984, 131175619844112384⟩]
theorem conv_adobeRgb1998_ok : @convCheck F N 57 adobeRgb1998 spaces conv_adobeRgb1998 = true := by krefl

/-- from `alexaWideGamut` to each of the ten spaces -/
def conv_alexaWideGamut : List (Matrix33 ℤ) := [
  ⟨233083528647016448, (-77420891499134976), (-11570006240264192),
    (-10146068889075712), 192329253990170624, (-38053719480205312),
    (-3035654967525376), (-32708306262818816), 179869931821596672⟩,
  ⟨163805551543713792, (-581105048616960), (-19109168493363200),
    (-10170157213155328), 192338342140968960, (-38051374428061696),
    (-3334883728424960), (-23443952283680768), 170893020676227072⟩,
  ⟨144115308334940160, 36507222016, (-137438953472),
    (-28747759616), 144115162306052096, (-38654705664),
    (-92476014592), (-24696061952), 144115145126182912⟩,
  ⟨98027998556454912, 34030887754530816, 12056299617386496,
    12309618935988224, 146633000983986176, (-14827417885474816),
    296338918998016, (-9016175736389632), 152835054018494464⟩,
  ⟨233109813846867968, (-77431096341430272), (-11563529429581824),
    (-10170587783626752), 192337964183846912, (-38052199061782528),
    (-3041121924022272), (-32707455859294208), 179863832968036352⟩,
  ⟨233109813846867968, (-77431096341430272), (-11563529429581824),
    (-10170587783626752), 192337964183846912, (-38052199061782528),
    (-3041121924022272), (-32707455859294208), 179863832968036352⟩,
  ⟨142773251314024448, 13336399587573760, (-11994492890513408),
    6720435722911744, 171140616950906880, (-33745880167219200),
    202240212074496, (-13633551194914816), 157546530062991360⟩,
  ⟨202934438777061376, (-44409845876523008), (-14409379054878720),
    (-1574132760182784), 182778054177718272, (-37088747702976512),
    372893355606016, (-19089712291512320), 162832054256402432⟩,
  ⟨189918248328757248, (-29536799332237312), (-16266282395500544),
    (-2095102226857984), 183383197889855488, (-37172937651912704),
    476798949261312, (-17178750345019392), 160817199198502912⟩,
  ⟨139306662950338560, 16651330508554240, (-11842783908200448),
    6944983592468480, 170767624811053056, (-33597383820443648),
    1036625924587520, (-9597134487683072), 152675745091551232⟩]
theorem conv_alexaWideGamut_ok : @convCheck F N 57 alexaWideGamut spaces conv_alexaWideGamut = true := by krefl

/-- from `aces` to each of the ten spaces -/
def conv_aces : List (Matrix33 ℤ) := [
  ⟨363407971872407552, (-163842900579319808), (-55472483335143424),
    (-39662451020529664), 197395305354756096, (-13603384418369536),
    (-2295037249454080), (-21301141560098816), 167722115041067008⟩,
  ⟨248602156020531200, (-60944572317958144), (-43542339792142336),
    (-39700143653519360), 197413430116745216, (-13596440529993728),
    (-3843187202326528), (-12295813837357056), 160253166913323008⟩,
  ⟨218476654110965760, (-52074846376427520), (-22286617511198720),
    (-18493953082916864), 146898704840785920, 15710345049931776,
    (-1514758729629696), 8766949521620992, 136862809379045376⟩,
  ⟨144115179485921280, 0, 1048576,
    4294967296, 144115188075855872, 0,
    0, 0, 144115188075855872⟩,
  ⟨363449031759757312, (-163862382550974464), (-55471504082599936),
    (-39700744948940800), 197413138058969088, (-13597196444237824),
    (-2303369486008320), (-21298667658936320), 167717270317957120⟩,
  ⟨363449031759757312, (-163862382550974464), (-55471504082599936),
    (-39700744948940800), 197413138058969088, (-13597196444237824),
    (-2303369486008320), (-21298667658936320), 167717270317957120⟩,
  ⟨214856752594681856, (-38725611279089664), (-32016009074311168),
    (-11419270068043776), 169964929783169024, (-14430449090691072),
    400366248132608, (-4385944635441152), 148100780287590400⟩,
  ⟨313496053846376448, (-119472838984859648), (-49907970951086080),
    (-25451959016226816), 184620938745085952, (-15053770178166784),
    1303698667995136, (-9687618711191552), 152499101676601344⟩,
  ⟨291874501283545088, (-99722199945969664), (-48037212045967360),
    (-26318520207802368), 185420902173769728, (-14987183152693248),
    1237164524306432, (-7899864344035328), 150777919302533120⟩,
  ⟨209174459322466304, (-34084787446611968), (-30974470915096576),
    (-11032568392581120), 169512583827554304, (-14364814474215424),
    1198491296595968, (-869368422465536), 143786073321897984⟩]
theorem conv_aces_ok : @convCheck F N 57 aces spaces conv_aces = true := by krefl

/-- from `srgbDrv` to each of the ten spaces -/
def conv_srgbDrv : List (Matrix33 ℤ) := [
  ⟨144098867200131072, 15569256448, (-6231997546496),
    15136773373952, 144114715629453312, (-351113576448),
    3525362843648, 1707249500160, 144120651274256384⟩,
  ⟨103060497636524032, 41054535820509184, 214748364800,
    310202335232, 144115755011538944, 794568949760,
    (-198642237440), 5931993007128576, 138182326411591680⟩,
  ⟨90982972290760704, 39026503802945536, 14105720572084224,
    5306295728996352, 114288667429699584, 24520148681490432,
    2503199818776576, 21442705829658624, 120169061773475840⟩,
  ⟨63349526370451456, 55327631268118528, 25438013257416704,
    12912784815685632, 117412714971660288, 13789725869473792,
    2509832590458880, 15670264415125504, 125935055368355840⟩,
  ⟨144115170895986688, (-13421772800), 4294967296,
    8707375104, 144115188075855872, (-1073741824),
    (-1073741824), (-2147483648), 144115188075855872⟩,
  ⟨144115170895986688, (-13421772800), 4294967296,
    8707375104, 144115188075855872, (-1073741824),
    (-1073741824), (-2147483648), 144115188075855872⟩,
  ⟨90418416019570688, 47454672746708992, 6242075687256064,
    9957976165056512, 132519755629199360, 1637478830178304,
    2362252145459200, 12684047742402560, 129068852486078464⟩,
  ⟨126231244903022592, 17592128062357504, 291825847894016,
    5091873244839936, 139005113296486400, 18223546236928,
    2360902451986432, 9189750397206528, 132564509188423680⟩,
  ⟨118529217490059264, 25585919046189056, 4294967296,
    4783789335117824, 139331436321701888, (-3221225472),
    2461863711342592, 10433562188709888, 131219746338111488⟩,
  ⟨88354563974758400, 49167355380498432, 6593279458017280,
    10088585046786048, 132306854100336640, 1719816440250368,
    2953032950087680, 15386308021059584, 125775832340758528⟩]
theorem conv_srgbDrv_ok : @convCheck F N 57 srgbDrv spaces conv_srgbDrv = true := by krefl

/-- from `bt709` to each of the ten spaces -/
def conv_bt709 : List (Matrix33 ℤ) := [
  ⟨144098867200131072, 15569256448, (-6231997546496),
    15136773373952, 144114715629453312, (-351113576448),
    3525362843648, 1707249500160, 144120651274256384⟩,
  ⟨103060497636524032, 41054535820509184, 214748364800,
    310202335232, 144115755011538944, 794568949760,
    (-198642237440), 5931993007128576, 138182326411591680⟩,
  ⟨90982972290760704, 39026503802945536, 14105720572084224,
    5306295728996352, 114288667429699584, 24520148681490432,
    2503199818776576, 21442705829658624, 120169061773475840⟩,
  ⟨63349526370451456, 55327631268118528, 25438013257416704,
    12912784815685632, 117412714971660288, 13789725869473792,
    2509832590458880, 15670264415125504, 125935055368355840⟩,
  ⟨144115170895986688, (-13421772800), 4294967296,
    8707375104, 144115188075855872, (-1073741824),
    (-1073741824), (-2147483648), 144115188075855872⟩,
  ⟨144115170895986688, (-13421772800), 4294967296,
    8707375104, 144115188075855872, (-1073741824),
    (-1073741824), (-2147483648), 144115188075855872⟩,
  ⟨90418416019570688, 47454672746708992, 6242075687256064,
    9957976165056512, 132519755629199360, 1637478830178304,
    2362252145459200, 12684047742402560, 129068852486078464⟩,
  ⟨126231244903022592, 17592128062357504, 291825847894016,
    5091873244839936, 139005113296486400, 18223546236928,
    2360902451986432, 9189750397206528, 132564509188423680⟩,
  ⟨118529217490059264, 25585919046189056, 4294967296,
    4783789335117824, 139331436321701888, (-3221225472),
    2461863711342592, 10433562188709888, 131219746338111488⟩,
  ⟨88354563974758400, 49167355380498432, 6593279458017280,
    10088585046786048, 132306854100336640, 1719816440250368,
    2953032950087680, 15386308021059584, 125775832340758528⟩]
theorem conv_bt709_ok : @convCheck F N 57 bt709 spaces conv_bt709 = true := by krefl

/-- from `bt2020` to each of the ten spaces -/
def conv_bt2020 : List (Matrix33 ℤ) := [
  ⟨239275033241845760, (-84677779911606272), (-10504570883014656),
    (-17924431829532672), 163258664767979520, (-1204766780686336),
    (-2610254831419392), (-14495626293149696), 161231800981520384⟩,
  ⟨166017700219322368, (-14051921811734528), (-7850495842451456),
    (-17949200905928704), 163268422933676032, (-1202413138608128),
    (-3247273374908416), (-7177751492558848), 154539193962332160⟩,
  ⟨145959653191188480, (-10670954694836224), 8826544340336640,
    (-5868724917633024), 123893202146033664, 26090620653142016,
    (-695315946536960), 10734987288510464, 134075332654268416⟩,
  ⟨97838547549028352, 22895351815995392, 23381305890701312,
    6567451672182784, 124041808014475264, 13505958453968896,
    (-69998500380672), 3611554247344128, 140573643942920192⟩,
  ⟨239302022816333824, (-84688010523705344), (-10498772677165056),
    (-17949626107691008), 163268079336292352, (-1203276427034624),
    (-2615796949843968), (-14494944467091456), 161225977005867008⟩,
  ⟨239302022816333824, (-84688010523705344), (-10498772677165056),
    (-17949626107691008), 163268079336292352, (-1203276427034624),
    (-2615796949843968), (-14494944467091456), 161225977005867008⟩,
  ⟨144115188075855872, (-2684354560), 0,
    (-4298506752), 144115205255725056, 0,
    56980496, 0, 144115188075855872⟩,
  ⟨207409502641717248, (-54277911196205056), (-9016347535081472),
    (-8858486012116992), 154484854036103168, (-1511163036696576),
    369526436790272, (-4309484553895936), 148055167734906880⟩,
  ⟨193630027785437184, (-40666360971264000), (-8848470148382720),
    (-9410372129783808), 155037375808929792, (-1511835199078400),
    406663139950592, (-2824444313600000), 146532996965466112⟩,
  ⟨140468503143514112, 3117768299773952, 528950992306176,
    241892558110720, 143788968129855488, 84375706271744,
    704188946317312, 3045432729010176, 140365587137167360⟩]
theorem conv_bt2020_ok : @convCheck F N 57 bt2020 spaces conv_bt2020 = true := by krefl

/-- from `dciP3` to each of the ten spaces -/
def conv_dciP3 : List (Matrix33 ℤ) := [
  ⟨165364281074778112, (-20903762595938304), (-367945553281024),
    (-6040368990650368), 150177603133636608, (-7725572423680),
    (-2521560267096064), (-10037701495488512), 156685165781843968⟩,
  ⟨116543886037352448, 27831469682458624, (-260167643955200),
    (-6057458665521152), 150180729869828096, (-6445135298560),
    (-2671047140704256), (-3443656459550720), 150228867863281664⟩,
  ⟨102522106306101248, 26487610922762240, 15105451519639552,
    855647746785280, 116620731592212480, 26638740084490240,
    (-134531805872128), 13611405269794816, 130638113276952576⟩,
  ⟨69926886532186112, 46694150002704384, 27494136508579840,
    9641372650831872, 119520238243938304, 14953600803405824,
    14677715189760, 7193427049447424, 136907073311997952⟩,
  ⟨165382904052973568, (-20906567209582592), (-361211044560896),
    (-6057767903166464), 150180283193229312, (-7308423725056),
    (-2525439159435264), (-10038590553718784), 156679255906844672⟩,
  ⟨165382904052973568, (-20906567209582592), (-361211044560896),
    (-6057767903166464), 150180283193229312, (-7308423725056),
    (-2525439159435264), (-10038590553718784), 156679255906844672⟩,
  ⟨101657752727715840, 35900143421095936, 6557227502534656,
    5828451009298432, 136538178570944512, 1748556885000192,
    (-84073976430592), 3884655111569408, 140314588695494656⟩,
  ⟨144115179485921280, 1879048192, 8589934592,
    5812992, 144115179485921280, 0,
    14146624, 0, 144115170895986688⟩,
  ⟨134945639057326080, 9467863488266240, (-298379967987712),
    (-366936235966464), 144501185376681984, (-19058648940544),
    87143149993984, 1375183029927936, 142652863380717568⟩,
  ⟨99211193327026176, 37959840085049344, 6944146073845760,
    5985822905991168, 136291613088415744, 1837746041651200,
    538009447432192, 6844317612113920, 136732860848537600⟩]
theorem conv_dciP3_ok : @convCheck F N 57 dciP3 spaces conv_dciP3 = true := by krefl

/-- from `dciP3D65` to each of the ten spaces -/
def conv_dciP3D65 : List (Matrix33 ℤ) := [
  ⟨176512676145397760, (-32413130340433920), (-6863357739008),
    (-6042482114560000), 150172328913797120, (-381178347520),
    (-2825928493236224), (-11332080084451328), 158283924408107008⟩,
  ⟨124516358951010304, 19598706718277632, 223338299392,
    (-6060709955764224), 150176641060962304, 878857682944,
    (-2963286110765056), (-4684583643643904), 151762033749000192⟩,
  ⟨109530402011480064, 19092894862278656, 15491938446737408,
    1211743418187776, 115973514380443648, 26929840082911232,
    (-195368935489536), 12331836801810432, 131978529620361216⟩,
  ⟨74772966851739648, 41404339431931904, 27937896824569856,
    10608575663570944, 118361748125253632, 15144897573027840,
    (-57702843678720), 5861718752231424, 138311175430471680⟩,
  ⟨176532536074174464, (-32417287868776448), (-17179869184),
    (-6061044963213312), 150176211564232704, 6442450944,
    (-2830068573274112), (-11332638430199808), 158277928633761792⟩,
  ⟨176532536074174464, (-32417287868776448), (-17179869184),
    (-6061044963213312), 150176211564232704, 6442450944,
    (-2830068573274112), (-11332638430199808), 158277928633761792⟩,
  ⟨108638809750503424, 28620888966430720, 6855493653889024,
    6592392547270656, 135724402527436800, 1798404543873024,
    (-174428704997376), 2536678015107072, 141752938883186688⟩,
  ⟨153880191360303104, (-10085426098339840), 320486164660224,
    390743239688192, 143704408813731840, 20018305695744,
    (-97768790032384), (-1379158022160384), 145592141429604352⟩,
  ⟨144115205255725056, 4026531840, (-8589934592),
    (-7310047), 144115179485921280, 0,
    (-296083040), 536870912, 144115205255725056⟩,
  ⟨106031790371635200, 30842220282118144, 7241211781840896,
    6759715883188224, 135466678719873024, 1888834811854848,
    500260510105600, 5478647397875712, 138136301542047744⟩]
theorem conv_dciP3D65_ok : @convCheck F N 57 dciP3D65 spaces conv_dciP3D65 = true := by krefl

/-- from `acesCg` to each of the ten spaces -/
def conv_acesCg : List (Matrix33 ℤ) := [
  ⟨245700166877708288, (-89950539462213632), (-11657022277681152),
    (-18665932163383296), 164060621061488640, (-1265219519119360),
    (-3477083921580032), (-17959721428320256), 165562742923591680⟩,
  ⟨170401556158480384, (-17594535391526912), (-8691776856522752),
    (-18691373402161152), 164070911803129856, (-1262715016314880),
    (-4109085943267328), (-10465956979539968), 158689197522157568⟩,
  ⟨149730565757599744, (-14121939442335744), 8506569276784640,
    (-6368210823675904), 123746108106080256, 26737202209751040,
    (-1417024064454656), 7874499877797888, 137657532947628032⟩,
  ⟨100225226515677184, 20273931411783680, 23616021558460416,
    6455583343378432, 123891664547741696, 13767947164057600,
    (-796369279254528), 580093449601024, 144331465449013248⟩,
  ⟨245727843646963712, (-89961508808687616), (-11651181122158592),
    (-18691798603923456), 164070585385615360, (-1263598168965120),
    (-3482740930379776), (-17958788346675200), 165556764329115648⟩,
  ⟨245727843646963712, (-89961508808687616), (-11651181122158592),
    (-18691798603923456), 164070585385615360, (-1263598168965120),
    (-3482740930379776), (-17958788346675200), 165556764329115648⟩,
  ⟨147864831964217344, (-3194398569398272), (-555300616667136),
    (-248307729301504), 144449405250961408, (-85889145372672),
    (-736424353595392), (-3118010696990720), 147969646346108928⟩,
  ⟨212945595227176960, (-58806026496901120), (-10024316229910528),
    (-9347417572900864), 155072147864158208, (-1609515103420416),
    (-369991031455744), (-7530922358341632), 152016089654493184⟩,
  ⟨198783215446523904, (-44861130975215616), (-9806986589765632),
    (-9914601290334208), 155638224553771008, (-1608405928116224),
    (-326669508280320), (-6010329989382144), 150452223342542848⟩,
  ⟨144115179485921280, (-2860515328), 0,
    (-5881462784), 144115205255725056, 0,
    0, (-67108864), 144115188075855872⟩]
theorem conv_acesCg_ok : @convCheck F N 57 acesCg spaces conv_acesCg = true := by krefl

/-- all conversion matrices -/
def convs : List (List (Matrix33 ℤ)) := [
  conv_srgb,
  conv_adobeRgb1998,
  conv_alexaWideGamut,
  conv_aces,
  conv_srgbDrv,
  conv_bt709,
  conv_bt2020,
  conv_dciP3,
  conv_dciP3D65,
  conv_acesCg]

theorem convTable : ConvTable 24 57 spaces convs := by
  refine ⟨by norm_num [Fmt.u, Fmt.b32], rfl, fun i a r ha hr => ?_⟩
  have hm := mem_zip_of_getElem? ha hr
  revert hm
  unfold spaces convs
  simp only [List.zip_cons_cons, List.zip_nil_right, List.mem_cons, List.not_mem_nil, or_false, Prod.mk.injEq]
  rintro (⟨rfl, rfl⟩ | ⟨rfl, rfl⟩ | ⟨rfl, rfl⟩ | ⟨rfl, rfl⟩ | ⟨rfl, rfl⟩ | ⟨rfl, rfl⟩ | ⟨rfl, rfl⟩ | ⟨rfl, rfl⟩ | ⟨rfl, rfl⟩ | ⟨rfl, rfl⟩)
  exacts [conv_srgb_ok, conv_adobeRgb1998_ok, conv_alexaWideGamut_ok, conv_aces_ok, conv_srgbDrv_ok, conv_bt709_ok, conv_bt2020_ok, conv_dciP3_ok, conv_dciP3D65_ok, conv_acesCg_ok]

/-- tolerances of the detours -/
def tabV : List (ColorSpaceRGB (FP F) × ℚ) :=
  [(srgb, 1.01e-4), (adobeRgb1998, 2.7e-5), (alexaWideGamut, 7.3e-6), (aces, 3.5e-6), (srgbDrv, 3.7e-6), (bt709, 3.7e-6), (bt2020, 3.7e-6), (dciP3, 3.7e-6), (dciP3D65, 3.7e-6), (acesCg, 3.7e-6)]

/-- tolerances of the greys -/
def tabG : List (ColorSpaceRGB (FP F) × ℚ) :=
  [(srgb, 1.75e-4), (adobeRgb1998, 2.8e-5), (alexaWideGamut, 1.5e-6), (aces, 7e-7), (srgbDrv, 8e-7), (bt709, 8e-7), (bt2020, 8e-7), (dciP3, 8e-7), (dciP3D65, 8e-7), (acesCg, 8e-7)]

theorem backs : ((List.range convs.length).zip (convs.zip (tabR.map Prod.snd))).all
    (fun x => backRow 24 57 x.1 x.2.1 x.2.2 convs (tabR.map Prod.snd)) = true := by
  krefl

theorem greys : (convs.zip (tabG.map Prod.snd)).all (fun x => greyRow 24 57 x.1 x.2 (tabG.map Prod.snd)) = true := by
  krefl

theorem via_srgb : viaRow 24 57 conv_srgb convs (tabV.map Prod.snd) = true := by krefl
theorem via_adobeRgb1998 : viaRow 24 57 conv_adobeRgb1998 convs (tabV.map Prod.snd) = true := by krefl
theorem via_alexaWideGamut : viaRow 24 57 conv_alexaWideGamut convs (tabV.map Prod.snd) = true := by krefl
theorem via_aces : viaRow 24 57 conv_aces convs (tabV.map Prod.snd) = true := by krefl
theorem via_srgbDrv : viaRow 24 57 conv_srgbDrv convs (tabV.map Prod.snd) = true := by krefl
theorem via_bt709 : viaRow 24 57 conv_bt709 convs (tabV.map Prod.snd) = true := by krefl
theorem via_bt2020 : viaRow 24 57 conv_bt2020 convs (tabV.map Prod.snd) = true := by krefl
theorem via_dciP3 : viaRow 24 57 conv_dciP3 convs (tabV.map Prod.snd) = true := by krefl
theorem via_dciP3D65 : viaRow 24 57 conv_dciP3D65 convs (tabV.map Prod.snd) = true := by krefl
theorem via_acesCg : viaRow 24 57 conv_acesCg convs (tabV.map Prod.snd) = true := by krefl

theorem vias : convs.all (fun r => viaRow 24 57 r convs (tabV.map Prod.snd)) = true := by
  rw [List.all_eq_true]
  intro r hr
  have hr' : r ∈ [conv_srgb, conv_adobeRgb1998, conv_alexaWideGamut, conv_aces, conv_srgbDrv, conv_bt709, conv_bt2020, conv_dciP3, conv_dciP3D65, conv_acesCg] := hr
  simp only [List.mem_cons, List.not_mem_nil, or_false] at hr'
  rcases hr' with rfl | rfl | rfl | rfl | rfl | rfl | rfl | rfl | rfl | rfl
  exacts [via_srgb, via_adobeRgb1998, via_alexaWideGamut, via_aces, via_srgbDrv, via_bt709, via_bt2020, via_dciP3, via_dciP3D65, via_acesCg]

theorem linkV [L : Libm F] : List.Forall₂ Linked
    (Spec.xyzTolerance F 1.01e-4 2.7e-5 7.3e-6 3.5e-6 3.7e-6) tabV := by
  unfold Spec.xyzTolerance tabV
  dsimp only
  exact .cons (linked_of_check (srgb_same l L) link_srgb) <|
    .cons (linked_of_check (adobeRgb1998_same l L) link_adobeRgb1998) <|
    .cons (linked_of_check (alexaWideGamut_same l L) link_alexaWideGamut) <|
    .cons (linked_of_check (aces_same l L) link_aces) <|
    .cons (linked_of_check (srgbDrv_same l L) link_srgbDrv) <|
    .cons (linked_of_check (bt709_same l L) link_bt709) <|
    .cons (linked_of_check (bt2020_same l L) link_bt2020) <|
    .cons (linked_of_check (dciP3_same l L) link_dciP3) <|
    .cons (linked_of_check (dciP3D65_same l L) link_dciP3D65) <|
    .cons (linked_of_check (acesCg_same l L) link_acesCg) .nil

theorem linkG [L : Libm F] : List.Forall₂ Linked
    (Spec.xyzTolerance F 1.75e-4 2.8e-5 1.5e-6 7e-7 8e-7) tabG := by
  unfold Spec.xyzTolerance tabG
  dsimp only
  exact .cons (linked_of_check (srgb_same l L) link_srgb) <|
    .cons (linked_of_check (adobeRgb1998_same l L) link_adobeRgb1998) <|
    .cons (linked_of_check (alexaWideGamut_same l L) link_alexaWideGamut) <|
    .cons (linked_of_check (aces_same l L) link_aces) <|
    .cons (linked_of_check (srgbDrv_same l L) link_srgbDrv) <|
    .cons (linked_of_check (bt709_same l L) link_bt709) <|
    .cons (linked_of_check (bt2020_same l L) link_bt2020) <|
    .cons (linked_of_check (dciP3_same l L) link_dciP3) <|
    .cons (linked_of_check (dciP3D65_same l L) link_dciP3D65) <|
    .cons (linked_of_check (acesCg_same l L) link_acesCg) .nil

end CS.Tripb32
