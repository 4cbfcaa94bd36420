import Verif.Lemmas.ViaEval
import Verif.Lemmas.TripEval64

/-!
# Evaluation of the grey and detour checks in b64
The conversion matrices between the ten spaces in units of 2^-116, and the integer checks on them.
-/

namespace CS.Tripb64

set_option maxHeartbeats 4000000

/-- the ten spaces -/
def spaces : List (ColorSpaceRGB (FP F)) := [srgb, adobeRgb1998, alexaWideGamut, aces, srgbDrv, bt709, bt2020, dciP3, dciP3D65, acesCg]

/-- from `srgb` to each of the ten spaces -/
def conv_srgb : List (Matrix33 ℤ) := [
  ⟨83076063522604428798258062548795392, 576460752303423488, 1924057523895886034863197782016,
    1800273166796374649160656224256, 83080099391106609374914498460123136, (-659629392909247007984149594112),
    31569164900280729619310575616, 990274856861951726570998595584, 83077044659018803786173558783213568⟩,
  ⟨59414605652443459143830632749072384, 23667371023976939078258632708587520, 3938502551508298904139305320448,
    (-6749653609096562836801079738368), 83080693556020726084781839216541696, (-498460499309897358707261440),
    (-2317758240900324074508106334208), 3419716163193816807556116826292224, 79653938881358982821648109509017600⟩,
  ⟨52451554640602682403963317524627456, 22498232722471172337688952300371968, 8134478243955297798667889566285824,
    3053357167605072074619769608732672, 65885808510222047249432394537631744, 14134258787206805823851728532930560,
    1440449204336274977811270322880512, 12361422788706177232637363327336448, 69270398743629499263264333661995008⟩,
  ⟨36519346547179565440207916653084672, 31895606930683096260938420726005760, 14665765959383129790118079148064768,
    7438656740635930647593121463926784, 67686768147793467010884985061113856, 7949082997252257357164542097883136,
    1444470670936483003989607592230912, 9033692187060525818355979995054080, 72594174271856057956600489569157120⟩,
  ⟨83085485490766724264200117956902912, 19599665578316398592, 5523061513179231249552939941888,
    (-6926289212360475239096829083648), 83080388131595795385521589100478464, (-460301213930580208852127449088),
    (-2002678690486833497946915340288), (-6917529027641081856), 83073885021049091268611985159225344⟩,
  ⟨83085485490766724264200117956902912, 19599665578316398592, 5523061513179231249552939941888,
    (-6926289212360475239096829083648), 83080388131595795385521589100478464, (-460301213930580208852127449088),
    (-2002678690486833497946915340288), (-6917529027641081856), 83073885021049091268611985159225344⟩,
  ⟨52125789840822748237530664521433088, 27356962633585743582533533401350144, 3601498259754207193950546160517120,
    5734590074638698096564763539537920, 76395772925550063835528757487075328, 943870059947851791905871288598528,
    1359487461680214768908172460556288, 7312179779185560924098363679309824, 74400627111983175075392729345163264⟩,
  ⟨72774170467029997387832860803596288, 10141603184945293981356232124923904, 172998060026311840650452159954944,
    2928890164185701302549157393727488, 80134489681334239148515331938451456, 10257776677156358288666435518464,
    1358828589218543949179900036907008, 5297767665987552834215986889490432, 76415670781793096249013689047318528⟩,
  ⟨68333422288573713065752610742468608, 14749928547330192296440155533737984, 4460787074132764323908226646016,
    2751259750418238248157380914184192, 80322601207340553974488606120607744, (-261688281774350825475713007616),
    1416993742453170791174333647552512, 6014807470096260380455238578995200, 75640488882919852015248472937594880⟩,
  ⟨50935835101853610940910027648532480, 28344291284316889288306416739680256, 3803863742045321033425134081277952,
    5809896253917082733532806891175936, 76273016279473430533943828594819072, 991336206385038549533487230091264,
    1699998918226318460458912656130048, 8869993527535570702365345414381568, 72502401297643095566318951622246400⟩]
theorem conv_srgb_ok : @convCheck F N 116 srgb spaces conv_srgb = true := by krefl

/-- from `adobeRgb1998` to each of the ten spaces -/
def conv_adobeRgb1998 : List (Matrix33 ℤ) := [
  ⟨116158625609395082652930737910579200, (-33089310743478742925623493107122176), (-3304294644021198565778772721664),
    11344462483521522681767050346496, 83072300062764594771841307130200064, (-536260419552561262093223854080),
    2813726436827651770131469565952, (-3566187285272845552369021172580352), 86646693170915918690335404607930368⟩,
  ⟨83077213304820758628333176022368256, 315949186918611678293118681088, 352627571925577871169261928448,
    (-610132265411162850964910637056), 83076271314170861037680976925294592, 151739683391198473727726583808,
    (-222022613671107861064821243904), 163171044156541068578834612224, 83076510026903548778422586568605696⟩,
  ⟨73341481933155696836932197284839424, 1255554228152030381973247170183168, 8480687827924431566357030485622784,
    4276737087350615274368918439854080, 64057118911275843430825483040718848, 14741503812400123595345435555790848,
    2017687720846132159461133398310912, 8812298653677074472639844178722816, 72246734784462892516307180804112384⟩,
  ⟨51065963835236698023446085856395264, 16717488117407189065778688566493184, 15293647160918080591364817755832320,
    10408336452274241064497199070576640, 64376837182407599991936979499483136, 8290286772029420462170392452136960,
    2023067845599825053351193641746432, 5340534727871495363179925152464896, 75713319723382317261096535782850560⟩,
  ⟨116171799715058158112335456913850368, (-33093218051182880217081169567547392), 448748747952268899451974713344,
    (-857155503780710307671817846784), 83076056012941169837340587213193216, (-327809107759836903070299586560),
    (-30810441394069531608955748352), (-3566231565029689649506391064313856), 86643397898087024071195767448010752⟩,
  ⟨116171799715058158112335456913850368, (-33093218051182880217081169567547392), 448748747952268899451974713344,
    (-857155503780710307671817846784), 83076056012941169837340587213193216, (-327809107759836903070299586560),
    (-30810441394069531608955748352), (-3566231565029689649506391064313856), 86643397898087024071195767448010752⟩,
  ⟨72886356157709727320842811041906688, 6438257784031199624427477290450944, 3752964789274618750840619837423616,
    8026367920989406609844406862217216, 74064617055548824353828201545334784, 984199202260980377242498423062528,
    1904119919269261721524074172121088, 3575452972602235737096906399023104, 77597394386845630630005246961647616⟩,
  ⟨101755394466225552629191807468568576, (-18852673156661333076122670722973696), 175797533481997597406507061739520,
    4103747904239203849743878504579072, 78960612655818911644511006175002624, 10657733062519633415453892673536,
    1903051812208603730805664249806848, 1474953684684230595813799586955264, 79699016669746188278992242265292800⟩,
  ⟨95546734925036708503254990361460736, (-12468753837956600427401307450507264), 310880195067591403837902028800,
    3855401117702169699654786508390400, 79219910029284780310429740677726208, (-302031891883502127201881423872),
    1984429845354633451706091579637760, 2202049702436063608589135973974016, 78890524402388718514269054241341440⟩,
  ⟨71222649120935535305336749647986688, 7890772187443393966244097094057984, 3964103374861467013036799151833088,
    8131651077247869455655987457294336, 73909838332673286484352400864837632, 1033699832049069475215382159556608,
    2380332136012726859816132048584704, 5079013630481455526005866468737024, 75617586819587367797808481116880896⟩]
theorem conv_adobeRgb1998_ok : @convCheck F N 116 adobeRgb1998 spaces conv_adobeRgb1998 = true := by krefl

/-- from `alexaWideGamut` to each of the ten spaces -/
def conv_alexaWideGamut : List (Matrix33 ℤ) := [
  ⟨134363512684431090424795863927750656, (-44630113527492676884386748047556608), (-6669659671389000552767708020604928),
    (-5848812617939726872555577782829056), 110870270029441457622446607435825152, (-21936475716120548200973960403222528),
    (-1749935668128519402556416780664832), (-18855056684605264170382312905637888), 103687948354495457809096406946807808⟩,
  ⟨94427465294051363427496620193742848, (-334984830928144003256201903079424), (-11015689130037399596464876084527104),
    (-5862696625339852707062250049896448), 110875506487407857708609521993121792, (-21935123265680909735358729929359360),
    (-1922429407357283740215306484711424), (-13514518968176286421858032424058880), 98513128080972484446142346450436096⟩,
  ⟨83076822548676110094868369903714304, 18937677406049711962355400704, (-79646510742123163613692690432),
    (-16154772450225044462495596544), 83076739602523001180717548813942784, (-23232246910883924250992836608),
    (-53418516234054487773399744512), (-14563769611622974389036777472), 83076725316894349014298584298815488⟩,
  ⟨56509296658937154305427339913199616, 19617473679399947323317874694553600, 6949985495173630980150554154500096,
    7096006351397982121595705915080704, 84528164689384371796657573180997632, (-8547422427084349644999423887933440),
    170827792127410869174534898974720, (-5197471184308124540809754617839616), 88103412165260892635972028537503744⟩,
  ⟨134378675550644623855368135205978112, (-44635992028365884839702245104680960), (-6665924468702811373528599647748096),
    (-5862951110233443841148055579525120), 110875298150636882441116768148652032, (-21935602317321628472365938680791040),
    (-1753089466856190881740419405709312), (-18854568230082206036199526671319040), 103684429656345928870091044134322176⟩,
  ⟨134378675550644623855368135205978112, (-44635992028365884839702245104680960), (-6665924468702811373528599647748096),
    (-5862951110233443841148055579525120), 110875298150636882441116768148652032, (-21935602317321628472365938680791040),
    (-1753089466856190881740419405709312), (-18854568230082206036199526671319040), 103684429656345928870091044134322176⟩,
  ⟨82303202536346800673620300339871744, 7687910606331097455478374790070272, (-6914358248899494375706977024081920),
    3874062692148317805010947812622336, 98655857854473495346257366481895424, (-19453174523873977733682647812538368),
    116583520243131662719323482357760, (-7859208191748508898134178985410560), 90819394022208619508601908516356096⟩,
  ⟨116983759960212130835367382229188608, (-25600561001726626425337437279485952), (-8306441628096494681007765585920000),
    (-907423051532665300231770479788032), 105364375749911916231607060319436800, (-21380207465528665695650892149161984),
    214958351678344639094423705092096, (-11004467348595066555877419338694656), 93866279008127559200068989794385920⟩,
  ⟨109480453248976976325847128087724032, (-17026823727296216930410634080681984), (-9376873012312510452522369245249536),
    (-1207742667669952350184231709704192), 105713225460865485432287303816970240, (-21428737594424463007554946511929344),
    274855739888557901620036625235968, (-9902872468650954249388490965909504), 92704786495864089730437979108802560⟩,
  ⟨80304817362891185112067499857281024, 9598838262708102619568282049445888, (-6826900870673333567864090623213568),
    4003506112974137752027224181047296, 98440808902867952187036638910611456, (-19367568964546894849577326907228160),
    597571069337170490562555991293952, (-5532371813033079502255958630858752), 88011569530794200206457604805754880⟩]
theorem conv_alexaWideGamut_ok : @convCheck F N 116 alexaWideGamut spaces conv_alexaWideGamut = true := by krefl

/-- from `aces` to each of the ten spaces -/
def conv_aces : List (Matrix33 ℤ) := [
  ⟨209490438606424395886946151947042816, (-94449005897479062465093324050006016), (-31977702559012839367589642104733696),
    (-22863847320809121886981195934203904), 113790652044687375781889739512086528, (-7841818010181255277339086451376128),
    (-1322998077837650229339776345964544), (-12279272653010359105402172384215040), 96685204512999098203265314624372736⟩,
  ⟨143309388368430824829809280799473664, (-35132153585313029291828142598520832), (-25100448697798071614306304441450496),
    (-22885581463311345150785744713809920), 113801088787588821394419606632792064, (-7837815708754253187814628157030400),
    (-2215446455792824377782640614309888), (-7088054398566513996072245788672000), 92379659462494146081511952709844992⟩,
  ⟨125943221334575640020836906709286912, (-30019107170820213375870145887469568), (-12847359034456387091139046785679360),
    (-10661038243203859456759602647924736), 84681342869857331884204034998927360, 9056395445165269743849362224578560,
    (-873199451126696767219826822217728), 5053802307574009196022641587126272, 78896036536014515968107611722612736⟩,
  ⟨83076749733387178310792991677087744, 0, 639303310467406910980096,
    3314165098712750180270080, 83076749734068508803155453966024704, 2925261616778768558325760,
    0, 0, 83076749740502318084323687104774144⟩,
  ⟨209514140401182036967885833605480448, (-94460249692487933824989587094634496), (-31977140992756410251071957525069824),
    (-22885935488575111288273883671560192), 113800939240773518210948324478943232, (-7838254009856053787114336493240320),
    (-1327804890847212846200511283593216), (-12277849217711608923733163457380352), 96682403849369602849893419147329536⟩,
  ⟨209514140401182036967885833605480448, (-94460249692487933824989587094634496), (-31977140992756410251071957525069824),
    (-22885935488575111288273883671560192), 113800939240773518210948324478943232, (-7838254009856053787114336493240320),
    (-1327804890847212846200511283593216), (-12277849217711608923733163457380352), 96682403849369602849893419147329536⟩,
  ⟨123856526266855539297592451610443776, (-22323800914239499118285380632182784), (-18455975626906426727951114461773824),
    (-6582769915074387084128181913911296), 97978108626279282003022539906875392, (-8318588970704428426507069484433408),
    230795582169594631200693068759040, (-2528325786322739671771225916440576), 85374279944691024412243065844006912⟩,
  ⟨180718183992631551715617391029256192, (-68871444578584194425132388502732800), (-28769989694836022184991884817989632),
    (-14672064200668016900572731983003648), 106426722521285296151422164988329984, (-8677908579208076569766513889771520),
    751530812640008443157824300646400, (-5584530640017098316992875878940672), 87909749567878090168878973056974848⟩,
  ⟨168254288457081782080508330130800640, (-57485968216070468762984811549687808), (-27691570520385786247735568662265856),
    (-15171601156511979730216621392789504), 106887875922385149305939184284860416, (-8639525024407337696176364666748928),
    713176720324132882341929494249472, (-4553959210389827309870635659821056), 86917532230562468112336738943238144⟩,
  ⟨120580860819084909023682291333857280, (-19648544129333587706018206553473024), (-17855566963667222820710759870234624),
    (-6359838667018138133365264801071104), 97717340403969821556912572346662912, (-8280751996476085448014388726333440),
    690878581472537517969760906641408, (-501156321577720520945563825340416), 82887027480569851354702642866552832⟩]
theorem conv_aces_ok : @convCheck F N 116 aces spaces conv_aces = true := by krefl

/-- from `srgbDrv` to each of the ten spaces -/
def conv_srgbDrv : List (Matrix33 ℤ) := [
  ⟨83067328672299564078390487124279296, 8070450532247928832, (-3598501749669905148236212994048),
    8725615964923309057859473375232, 83076461008713040853991716326211584, (-199916763875418176810351853568),
    2034192678942957268626183290880, 990231489099284170543512682496, 83079909353729772487328076482478080⟩,
  ⟨59410331605400547546334303459737600, 23666334542958418499358940467298304, 119950058319716882864098246656,
    176653574740712513237906620416, 83077055147606493968133616635478016, 459808556896859736997470666752,
    (-112415911204055931975611973632), 3419566401275262202479660406669312, 79656704618454164754540409856720896⟩,
  ⟨52448111236849652279790290161631232, 22497247442308727097621315493822464, 8131396461175276508694259215368192,
    3058869062710533734298601526394880, 65882923128916198754432138864492544, 14134907875639705462691194237616128,
    1442997937230005420715228297953280, 12360881436645177883178371704160256, 69272760014537268291884565326200832⟩,
  ⟨36518519107945060499018058827825152, 31894210105022806184570271022710784, 14664020527150666890281830032867328,
    7443708586808778063990991397847040, 67683803895856946409133871737077760, 7949237254369522297937590709387264,
    1446821700235022068206754219425792, 9033296568532831911973887718457344, 72596631467747560948811291376484352⟩,
  ⟨83076749736557242056487941267521536, (-2305843009213693952), 4611686018427387904,
    315251973915934720, 83076749736557232833115904412745728, (-1152921504606846976),
    0, 2305843009213693952, 83076749736557232833115904412745728⟩,
  ⟨83076749736557242056487941267521536, (-2305843009213693952), 4611686018427387904,
    315251973915934720, 83076749736557232833115904412745728, (-1152921504606846976),
    0, 2305843009213693952, 83076749736557232833115904412745728⟩,
  ⟨52122676446307994919771886980169728, 27355764571812617623792203268620288, 3598308718436629512923851018731520,
    5740378215488323771316545045659648, 76392427274338856271648027387625472, 943944246730053654842460434595840,
    1361747465252935725184370817892352, 7311859552002857237093660238020608, 74403142719301436988534111839715328⟩,
  ⟨72767368319015856048353641064562688, 10141159046929789139677902477983744, 168222370611619926886489861914624,
    2935262460367244297972203009343488, 80130980297998004530799009723318272, 10506978191988616030710107471872,
    1360969312845715666547593720102912, 5297535657302656601823312212918272, 76418244766408855088367851597201408⟩,
  ⟨68327467142719265588882490020331520, 14749282593837999526035543384129536, 4611686018427387904,
    2757666150646841935443654447464448, 80319083585910376486153442379694080, (-6629298651489370112),
    1419169437260513365400414601609216, 6014544059607350787088670114447360, 75643036239689381939224122675429376⟩,
  ⟨50932934004741870876540590115258368, 28343049983799394712493280813121536, 3800765748015994914198144048693248,
    5815667387996746188417558655270912, 76269676004226169470942887278542848, 991406344334278262654677997846528,
    1702307222366581929332376898371584, 8869605077972828398603478061023232, 72504837436217873521956628306329600⟩]
theorem conv_srgbDrv_ok : @convCheck F N 116 srgbDrv spaces conv_srgbDrv = true := by krefl

/-- from `bt709` to each of the ten spaces -/
def conv_bt709 : List (Matrix33 ℤ) := [
  ⟨83067328672299564078390487124279296, 8070450532247928832, (-3598501749669905148236212994048),
    8725615964923309057859473375232, 83076461008713040853991716326211584, (-199916763875418176810351853568),
    2034192678942957268626183290880, 990231489099284170543512682496, 83079909353729772487328076482478080⟩,
  ⟨59410331605400547546334303459737600, 23666334542958418499358940467298304, 119950058319716882864098246656,
    176653574740712513237906620416, 83077055147606493968133616635478016, 459808556896859736997470666752,
    (-112415911204055931975611973632), 3419566401275262202479660406669312, 79656704618454164754540409856720896⟩,
  ⟨52448111236849652279790290161631232, 22497247442308727097621315493822464, 8131396461175276508694259215368192,
    3058869062710533734298601526394880, 65882923128916198754432138864492544, 14134907875639705462691194237616128,
    1442997937230005420715228297953280, 12360881436645177883178371704160256, 69272760014537268291884565326200832⟩,
  ⟨36518519107945060499018058827825152, 31894210105022806184570271022710784, 14664020527150666890281830032867328,
    7443708586808778063990991397847040, 67683803895856946409133871737077760, 7949237254369522297937590709387264,
    1446821700235022068206754219425792, 9033296568532831911973887718457344, 72596631467747560948811291376484352⟩,
  ⟨83076749736557242056487941267521536, (-2305843009213693952), 4611686018427387904,
    315251973915934720, 83076749736557232833115904412745728, (-1152921504606846976),
    0, 2305843009213693952, 83076749736557232833115904412745728⟩,
  ⟨83076749736557242056487941267521536, (-2305843009213693952), 4611686018427387904,
    315251973915934720, 83076749736557232833115904412745728, (-1152921504606846976),
    0, 2305843009213693952, 83076749736557232833115904412745728⟩,
  ⟨52122676446307994919771886980169728, 27355764571812617623792203268620288, 3598308718436629512923851018731520,
    5740378215488323771316545045659648, 76392427274338856271648027387625472, 943944246730053654842460434595840,
    1361747465252935725184370817892352, 7311859552002857237093660238020608, 74403142719301436988534111839715328⟩,
  ⟨72767368319015856048353641064562688, 10141159046929789139677902477983744, 168222370611619926886489861914624,
    2935262460367244297972203009343488, 80130980297998004530799009723318272, 10506978191988616030710107471872,
    1360969312845715666547593720102912, 5297535657302656601823312212918272, 76418244766408855088367851597201408⟩,
  ⟨68327467142719265588882490020331520, 14749282593837999526035543384129536, 4611686018427387904,
    2757666150646841935443654447464448, 80319083585910376486153442379694080, (-6629298651489370112),
    1419169437260513365400414601609216, 6014544059607350787088670114447360, 75643036239689381939224122675429376⟩,
  ⟨50932934004741870876540590115258368, 28343049983799394712493280813121536, 3800765748015994914198144048693248,
    5815667387996746188417558655270912, 76269676004226169470942887278542848, 991406344334278262654677997846528,
    1702307222366581929332376898371584, 8869605077972828398603478061023232, 72504837436217873521956628306329600⟩]
theorem conv_bt709_ok : @convCheck F N 116 bt709 spaces conv_bt709 = true := by krefl

/-- from `bt2020` to each of the ten spaces -/
def conv_bt2020 : List (Matrix33 ℤ) := [
  ⟨137932617145091112012461324837584896, (-48813417683772385281174939776319488), (-6055469290768800276242005158264832),
    (-10332720204770151968691772333228032), 94112206706865374504701622107504640, (-694499794181143293732298078289920),
    (-1504709349388447477191956097925120), (-8356159271553539299115395805347840), 92943802398839809575525130329653248⟩,
  ⟨95702665688348659259072034843394048, (-8100379015781470479010596923637760), (-4525500574149891488270283826003968),
    (-10347001654695707267004795354873856), 94117837174305322026862065525719040, (-693143909871498747884933331550208),
    (-1871925278707124550528067155525632), (-4137691085039275780624725733015552), 89085774967564629861539539029327872⟩,
  ⟨84139982889090232545702263484579840, (-6151385396853242620638336085131264), 5088157648096682101943001967230976,
    (-3383084151211424287726397936369664), 71419566078113874129176203079188480, 15040218140363984074746863361720320,
    (-400822031572835878619244216188928), 6188298492622816515506838641311744, 77289162927362479677859449492471808⟩,
  ⟨56400070219576027403553427490340864, 13198272166442238359540145965760512, 13478407354100281645834641709465600,
    3785876513801934318523467509530624, 71505219556898885137493675684659200, 7785653666334418091673273795346432,
    (-40351237343898260805907868811264), 2081919609529543984188164501667840, 81035181364329779388248434166202368⟩,
  ⟨137948195421967573275907569146134528, (-48819315822041828286605292646432768), (-6052129863368479874384243095240704),
    (-10347248601399642763529769841590272), 94117641230104847884829216177389568, (-693642892147954994360972820348928),
    (-1507906424762942005256623052816384), (-8355767938589960338390892536659968), 92940424099910152182355612953214976⟩,
  ⟨137948195421967573275907569146134528, (-48819315822041828286605292646432768), (-6052129863368479874384243095240704),
    (-10347248601399642763529769841590272), 94117641230104847884829216177389568, (-693642892147954994360972820348928),
    (-1507906424762942005256623052816384), (-8355767938589960338390892536659968), 92940424099910152182355612953214976⟩,
  ⟨83076749736557260503232014977073152, 1152921504606846976, 0,
    (-3800238186680225), 83076749736557242056487941267521536, (-288230376151711744),
    61182409943490912, 0, 83076749736557242056487941267521536⟩,
  ⟨119563420804902232804345493111963648, (-31289100765283947284278876068380672), (-5197570303060969676602380937854976),
    (-5106565425404155935796380083159040), 89054441581062847883998070334029824, (-871126419101458250394657382989824),
    213017241461599159086869448228864, (-2484246801989234105191768814256128), 85347979297084877651111186974900224⟩,
  ⟨111620114241429503068148757847605248, (-23442569869043961280728410726858752), (-5100794635828249002386203151958016),
    (-5424700143796362941639632676192256), 89372963454564514525269639248740352, (-871513574210944114787203510435840),
    234424914150135488165479119323136, (-1628179224824689411790623052136448), 84470504047231807004924973003309056⟩,
  ⟨80974551501325544480039654513442816, 1797274239971696798414425647218688, 304923995260026142306962457493504,
    139444249145139324387181635567616, 82888668134729012599337240819138560, 48637352683037386604683049566208,
    405934157892615858966434129379328, 1755572276079313474427292737339392, 80915243302585360064933497319456768⟩]
theorem conv_bt2020_ok : @convCheck F N 116 bt2020 spaces conv_bt2020 = true := by krefl

/-- from `dciP3` to each of the ten spaces -/
def conv_dciP3 : List (Matrix33 ℤ) := [
  ⟨95326008531640259600638744073338880, (-12050178383480691795034850935701504), (-212099977609793536198121338437632),
    (-3482042499388986583900934809583616), 86571484369686210589799897150521344, (-4455162383070400184363503321088),
    (-1453580228364945324001115569651712), (-5786342535404857861117635784081408), 90322856541667648178075493461917696⟩,
  ⟨67182980203716604638254371432300544, 16043773834300250013919430037209088, (-149967939599672652533108060454912),
    (-3491889605426124449325565234642944), 86573297741296260823164323004153856, (-3716526131913716627244796870656),
    (-1539753569582812493838779661942784), (-1985134650136026083571732431503360), 86601046823537084536928698881802240⟩,
  ⟨59099965010048637808794273027457024, 15269083970604316893989289154576384, 8707706159680629702189017064275968,
    493241904481596877243577603719168, 67227270933821235579861426526748672, 15356187228963652187637867075338240,
    (-77552894033521557616484052631552), 7846438634719736571120043469832192, 75307753647726267134694477992558592⟩,
  ⟨40310101052867483282946554819772416, 26917353975521168106584770560917504, 15849294711729829149949622587752448,
    5557869310743547658194566024003584, 68898714905015988490566647144251392, 8620165521275744057024874274619392,
    8461046148794561173913197346816, 4146727357894790291124845371457536, 78921561332471829833498794867556352⟩,
  ⟨95336756845132553218863841411072000, (-12051795740511073916415047131725824), (-208211368064366373169368978685952),
    (-3492071433246159218437932600786944), 86573037132618441762927854462435328, (-4215962814978230240731824390144),
    (-1455817623880995797801798106873856), (-5786859255342385232331194289356800), 90319426615780638651061245856186368⟩,
  ⟨95336756845132553218863841411072000, (-12051795740511073916415047131725824), (-208211368064366373169368978685952),
    (-3492071433246159218437932600786944), 86573037132618441762927854462435328, (-4215962814978230240731824390144),
    (-1455817623880995797801798106873856), (-5786859255342385232331194289356800), 90319426615780638651061245856186368⟩,
  ⟨58601716854271277577556832242630656, 20695042492973607608386772011057152, 3779990389312278471882023748239360,
    3359869269595097778430016101548032, 78708906229244896799399494587252736, 1007974237717274716428976915480576,
    (-48465489343558454568712501460992), 2239349417506553372786050541289472, 80885865808394251677899027617153024⟩,
  ⟨83076749736557232833115904412745728, 12105675798371893248, 0,
    4611686018427387904, 83076749736557260503232014977073152, (-288230376151711744),
    (-288230376151711744), 576460752303423488, 83076749736557242056487941267521536⟩,
  ⟨77790881238322839509536686989115392, 5457862923659385410600790155853824, (-171994425425086626584950493675520),
    (-211527655166132046359379006455808), 83299264818584921245680738496413696, (-10987426861515725722417685856256),
    50234617979389607771728238346240, 792739266667419520739671873159168, 82233775851910437972008123810971648⟩,
  ⟨57191351163185933391946696838086656, 21882369145729734576809477889064960, 4003029427641527970871582266490880,
    3450597248265487459282815765446656, 78566760845484332089969494609362944, 1059391642807431586492479671631872,
    310138939510068720683666408210432, 3945478154838495482691550101635072, 78821132642208708477590190877048832⟩]
theorem conv_dciP3_ok : @convCheck F N 116 dciP3 spaces conv_dciP3 = true := by krefl

/-- from `dciP3D65` to each of the ten spaces -/
def conv_dciP3D65 : List (Matrix33 ℤ) := [
  ⟨101752578892776385044784721923407872, (-18684896582754770445250368121077760), (-3952139471715814606084463656960),
    (-3483250674650005545919503042347008), 86568456945868127542911571133988864, (-219563303986838021542963576832),
    (-1629036137076062479785549616906240), (-6532501230332071487046088088616960), 91244471145305955613127911525056512⟩,
  ⟨71778765754062500585749010660196352, 11297888606372380046001169529569280, 131737982398213296900194435072,
    (-3493760585211785338979384637259776), 86570947199350824837205820123906048, 504995599162982858746866171904,
    (-1708217137462331211797756559491072), (-2700480015394649549343813013602304), 87484855756675217785518095658385408⟩,
  ⟨63139952165373215338562182107365376, 11006304909371953522024415028576256, 8930498065588498554734313803350016,
    698521469683889112536355734290432, 66854182437342883311182715528675328, 15523996160239721444395836797616128,
    (-112622489558414809143576918753280), 7108818345103841871752459441930240, 76080443532867039232918466542436352⟩,
  ⟨43103662380087282090878700273795072, 23867980743136455843959287247273984, 16105106616894802556561200003416064,
    6115419452945000869985132916768768, 68230892866359161819770958955675648, 8730437417731110598500967929348096,
    (-33263229651822501230662536658944), 3379049165977154832880104214888448, 79730963800190102872548014058110976⟩,
  ⟨101764048467114363285620355915317248, (-18687298730557148899248525212123136), 9223372036854775808,
    (-3493955101098468659213989698338816), 86570704837655756832562115239739392, 3458764513820540928,
    (-1631424208139196513435247502688256), (-6532827076482370289665739797299200), 91241001021178815200657203905167360⟩,
  ⟨101764048467114363285620355915317248, (-18687298730557148899248525212123136), 9223372036854775808,
    (-3493955101098468659213989698338816), 86570704837655756832562115239739392, 3458764513820540928,
    (-1631424208139196513435247502688256), (-6532827076482370289665739797299200), 91241001021178815200657203905167360⟩,
  ⟨62625998338818306778267862245048320, 16498823927122911470678709513486336, 3951927470616026113384378722680832,
    3800250292481955692542083505061888, 78239790397886765021175631600156672, 1036709046188572647777181166993408,
    (-100551142728374416667012520476672), 1462293463156283667099599264284672, 81715007416129333832876069564186624⟩,
  ⟨88705863233441050584526670482374656, (-5813867685479648448783022418821120), 184754188595880272996954443612160,
    225249575038335500180674471526400, 82839960624753426341299943110606848, 11539536765522296642241835302912,
    (-56359680520365300140368268886016), (-795031378979823691342167861624832), 83928140796057430795768898265284608⟩,
  ⟨83076749736557242056487941267521536, 6341068275337658368, 9223372036854775808,
    4619535116644970496, 83076749736557260503232014977073152, (-4611686018427387904),
    29686258256458880, (-576460752303423488), 83076749736557260503232014977073152⟩,
  ⟨61123137043889805032364672739704832, 17779332011301449850648797783261184, 4174280681366010231904562881495040,
    3896705529801449417553865403793408, 78091208791761175216127650899689472, 1088835414994607334743259654127616,
    288378226775216242872390931972096, 3158222671071549135037060006019072, 79630148838710525713771233139490816⟩]
theorem conv_dciP3D65_ok : @convCheck F N 116 dciP3D65 spaces conv_dciP3D65 = true := by krefl

/-- from `acesCg` to each of the ten spaces -/
def conv_acesCg : List (Matrix33 ℤ) := [
  ⟨141636498130626390352123909663358976, (-51852957688145748453642094455554048), (-6719810271930886075820117118156800),
    (-10760178331624358440489693179019264), 94574515909696916915726081211760640, (-729350870158359905583109528092672),
    (-2004397720256906990222153567174656), (-10353075418932997653591181590790144), 95440406917087673255720397062537216⟩,
  ⟨98229808005446803939491456154075136, (-10142554403023684742415538725060608), (-5010467504005909527319113455632384),
    (-10774847996648946043497334699982848), 94580446655408834375950366194794496, (-727907049021660487094747791360000),
    (-2368722653890466264074480806526976), (-6033214214742108999783403468357632), 91478095472450758965614822293504000⟩,
  ⟨86313795764437215534698295006855168, (-8140744551441385762279394117681152), 4903703927337769620533238246146048,
    (-3671023743617007294767994941472768), 71334777671020067963656431235760128, 15412946139863429740461957945753600,
    (-816855880134888288850846679040000), 4539340461045150745827083842224128, 79354154807502162045146569904226304⟩,
  ⟨57775911809073528251400005714182144, 11687128859963971846452844722913280, 13613709071081019640959254164144128,
    3721386729193959885665900026658816, 71418682362632781224470669648986112, 7936680645208563883461866814439424,
    (-459072362353778955809880323129344), 334401389226631769436464676339712, 83201420709642538264301722407010304⟩,
  ⟨141652474832878729356122577686233088, (-51859287055963872566254402214559744), (-6716438040357743860588750171013120),
    (-10775098481196016189600811695734784), 94580266526264089823177479341211648, (-728418308510749719661899291820032),
    (-2007661390837395919976882879070208), (-10352539222166153163178007488102400), 95436950349560743581630766602256384⟩,
  ⟨141652474832878729356122577686233088, (-51859287055963872566254402214559744), (-6716438040357743860588750171013120),
    (-10775098481196016189600811695734784), 94580266526264089823177479341211648, (-728418308510749719661899291820032),
    (-2007661390837395919976882879070208), (-10352539222166153163178007488102400), 95436950349560743581630766602256384⟩,
  ⟨85238299442531431926882357825503232, (-1841441418310593542091920979787776), (-320108287663660027215625106489344),
    (-143147954811846578855590041223168), 83269410666730698916285475819880448, (-49512975361520875482141952049152),
    (-424516189058532700628214802808832), (-1797411203432393733480641906868224), 85298677129048136641140233213050880⟩,
  ⟨122754779415424608002173009754324992, (-33899398496443269180050318250999808), (-5778631182424179775983081928785920),
    (-5388428268855437630630002134351872), 89393002310812453351976940616024064, (-927824305399716595244519175225344),
    (-213281775083330485275086483881984), (-4341280096370775061446461208133632), 87631311608011342054774748039086080⟩,
  ⟨114590783553050681850696013403127808, (-25860697010627457897047165704863744), (-5653336805866083354253311833276416),
    (-5715387302239111703876034566815744), 89719322865009581379893790270029824, (-927185826213169685224207941632000),
    (-188308340906125154423218804621312), (-3464717089970379726594000835051520), 86729775167433707738174004274397184⟩,
  ⟨83076749736557242056487941267521536, 72057594037927936, 4611686018427387904,
    4830110600354856960, 83076749736557260503232014977073152, (-864691128455135232),
    (-72057594037927936), (-72057594037927936), 83076749736557242056487941267521536⟩]
theorem conv_acesCg_ok : @convCheck F N 116 acesCg spaces conv_acesCg = true := by krefl

/-- all conversion matrices -/
def convs : List (List (Matrix33 ℤ)) := [
  conv_srgb,
  conv_adobeRgb1998,
  conv_alexaWideGamut,
  conv_aces,
  conv_srgbDrv,
  conv_bt709,
  conv_bt2020,
  conv_dciP3,
  conv_dciP3D65,
  conv_acesCg]

theorem convTable : ConvTable 53 116 spaces convs := by
  refine ⟨by norm_num [Fmt.u, Fmt.b64], rfl, fun i a r ha hr => ?_⟩
  have hm := mem_zip_of_getElem? ha hr
  revert hm
  unfold spaces convs
  simp only [List.zip_cons_cons, List.zip_nil_right, List.mem_cons, List.not_mem_nil, or_false, Prod.mk.injEq]
  rintro (⟨rfl, rfl⟩ | ⟨rfl, rfl⟩ | ⟨rfl, rfl⟩ | ⟨rfl, rfl⟩ | ⟨rfl, rfl⟩ | ⟨rfl, rfl⟩ | ⟨rfl, rfl⟩ | ⟨rfl, rfl⟩ | ⟨rfl, rfl⟩ | ⟨rfl, rfl⟩)
  exacts [conv_srgb_ok, conv_adobeRgb1998_ok, conv_alexaWideGamut_ok, conv_aces_ok, conv_srgbDrv_ok, conv_bt709_ok, conv_bt2020_ok, conv_dciP3_ok, conv_dciP3D65_ok, conv_acesCg_ok]

/-- tolerances of the detours -/
def tabV : List (ColorSpaceRGB (FP F) × ℚ) :=
  [(srgb, 1e-4), (adobeRgb1998, 2.4e-5), (alexaWideGamut, 4.1e-6), (aces, 2.2e-10), (srgbDrv, 7e-15), (bt709, 7e-15), (bt2020, 7e-15), (dciP3, 7e-15), (dciP3D65, 7e-15), (acesCg, 7e-15)]

/-- tolerances of the greys -/
def tabG : List (ColorSpaceRGB (FP F) × ℚ) :=
  [(srgb, 1.75e-4), (adobeRgb1998, 2.8e-5), (alexaWideGamut, 1.4e-6), (aces, 2.5e-10), (srgbDrv, 3e-15), (bt709, 3e-15), (bt2020, 3e-15), (dciP3, 3e-15), (dciP3D65, 3e-15), (acesCg, 3e-15)]

theorem backs : ((List.range convs.length).zip (convs.zip (tabR.map Prod.snd))).all
    (fun x => backRow 53 116 x.1 x.2.1 x.2.2 convs (tabR.map Prod.snd)) = true := by
  krefl

theorem greys : (convs.zip (tabG.map Prod.snd)).all (fun x => greyRow 53 116 x.1 x.2 (tabG.map Prod.snd)) = true := by
  krefl

theorem via_srgb : viaRow 53 116 conv_srgb convs (tabV.map Prod.snd) = true := by krefl
theorem via_adobeRgb1998 : viaRow 53 116 conv_adobeRgb1998 convs (tabV.map Prod.snd) = true := by krefl
theorem via_alexaWideGamut : viaRow 53 116 conv_alexaWideGamut convs (tabV.map Prod.snd) = true := by krefl
theorem via_aces : viaRow 53 116 conv_aces convs (tabV.map Prod.snd) = true := by krefl
theorem via_srgbDrv : viaRow 53 116 conv_srgbDrv convs (tabV.map Prod.snd) = true := by krefl
theorem via_bt709 : viaRow 53 116 conv_bt709 convs (tabV.map Prod.snd) = true := by krefl
theorem via_bt2020 : viaRow 53 116 conv_bt2020 convs (tabV.map Prod.snd) = true := by krefl
theorem via_dciP3 : viaRow 53 116 conv_dciP3 convs (tabV.map Prod.snd) = true := by krefl
theorem via_dciP3D65 : viaRow 53 116 conv_dciP3D65 convs (tabV.map Prod.snd) = true := by krefl
theorem via_acesCg : viaRow 53 116 conv_acesCg convs (tabV.map Prod.snd) = true := by krefl

theorem vias : convs.all (fun r => viaRow 53 116 r convs (tabV.map Prod.snd)) = true := by
  rw [List.all_eq_true]
  intro r hr
  have hr' : r ∈ [conv_srgb, conv_adobeRgb1998, conv_alexaWideGamut, conv_aces, conv_srgbDrv, conv_bt709, conv_bt2020, conv_dciP3, conv_dciP3D65, conv_acesCg] := hr
  simp only [List.mem_cons, List.not_mem_nil, or_false] at hr'
  rcases hr' with rfl | rfl | rfl | rfl | rfl | rfl | rfl | rfl | rfl | rfl
  exacts [via_srgb, via_adobeRgb1998, via_alexaWideGamut, via_aces, via_srgbDrv, via_bt709, via_bt2020, via_dciP3, via_dciP3D65, via_acesCg]

theorem linkV [L : Libm F] : List.Forall₂ Linked
    (Spec.xyzTolerance F 1e-4 2.4e-5 4.1e-6 2.2e-10 7e-15) tabV := by
  unfold Spec.xyzTolerance tabV
  dsimp only
  exact .cons (linked_of_check (srgb_same l L) link_srgb) <|
    .cons (linked_of_check (adobeRgb1998_same l L) link_adobeRgb1998) <|
    .cons (linked_of_check (alexaWideGamut_same l L) link_alexaWideGamut) <|
    .cons (linked_of_check (aces_same l L) link_aces) <|
    .cons (linked_of_check (srgbDrv_same l L) link_srgbDrv) <|
    .cons (linked_of_check (bt709_same l L) link_bt709) <|
    .cons (linked_of_check (bt2020_same l L) link_bt2020) <|
    .cons (linked_of_check (dciP3_same l L) link_dciP3) <|
    .cons (linked_of_check (dciP3D65_same l L) link_dciP3D65) <|
    .cons (linked_of_check (acesCg_same l L) link_acesCg) .nil

theorem linkG [L : Libm F] : List.Forall₂ Linked
    (Spec.xyzTolerance F 1.75e-4 2.8e-5 1.4e-6 2.5e-10 3e-15) tabG := by
  unfold Spec.xyzTolerance tabG
  dsimp only
  exact .cons (linked_of_check (srgb_same l L) link_srgb) <|
    .cons (linked_of_check (adobeRgb1998_same l L) link_adobeRgb1998) <|
    .cons (linked_of_check (alexaWideGamut_same l L) link_alexaWideGamut) <|
    .cons (linked_of_check (aces_same l L) link_aces) <|
    .cons (linked_of_check (srgbDrv_same l L) link_srgbDrv) <|
    .cons (linked_of_check (bt709_same l L) link_bt709) <|
    .cons (linked_of_check (bt2020_same l L) link_bt2020) <|
    .cons (linked_of_check (dciP3_same l L) link_dciP3) <|
    .cons (linked_of_check (dciP3D65_same l L) link_dciP3D65) <|
    .cons (linked_of_check (acesCg_same l L) link_acesCg) .nil

end CS.Tripb64
