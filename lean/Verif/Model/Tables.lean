import Verif.Model.Spd
import Verif.Model.Vspd

/-!
# Spectral tables shipped with the crate: fixed-size weights and RGB uplifting bases
The decimal constants of `spd.rs:272-399` and `uplifting.rs:51-832`, copied by a script from the source.
A table is a list of the decimal constants; its entries mean `lit q` (the nearest float, or the exact
rational).
-/

namespace CS.Tables
open CS

/-- the constants of `W_X`, spd.rs:273-314 -/
def wX : List ℚ :=
  [0.007864003493245105835818, 0.021943717019242681837143, 0.101133744382973886355437,
   0.376414858482632896929942, 1.201253070400094991043716, 2.383645531319864563357669,
   3.421092850664719797748603, 3.705891113995714913897928, 3.229389765277956403366488,
   2.147444969281128823723748, 1.043705008035428871693284, 0.332370261179216475166953,
   0.045448860948042492380328, 0.097995009657719053808300, 0.636135480290361154942502,
   1.668186881249859698783666, 2.882278494404322710664701, 4.253157660902187942042474,
   5.625171277346882270364858, 6.984050366311485014136906, 8.223133612943772874359638,
   8.714900442338462838165469, 9.017012502520618255630325, 8.494691128050712691788249,
   7.053843922181556536088465, 5.118833913627399923029770, 3.518633359128076509847460,
   2.165511357242208667628347, 1.251381284110856029201386, 0.679331703320806390422604,
   0.341091614928396735795246, 0.152973607860623722620730, 0.075753329173883235392317,
   0.039745035049458470044481, 0.017583441176375266823406, 0.009301682781154962248449,
   0.004820496761549509720512, 0.001989701359435081060717, 0.000764666426511929724075,
   0.000662482764242765145672]

/-- the constants of `W_Y`, spd.rs:315-356 -/
def wY : List ℚ :=
  [0.000229771725224404461821, 0.000626210118362575366042, 0.002790961935668020716533,
   0.010074297386527085798602, 0.035532218004344022499463, 0.097848624627078523152690,
   0.226347863565176637967724, 0.418132395050589300566912, 0.664506800474969350212007,
   0.997458536350732227759863, 1.503097692273868357659694, 2.160941176561009147150116,
   3.353284482062226512510961, 5.129818242379510451200986, 7.069296076785541060871765,
   8.716207575315523925496564, 9.469337176383364251819330, 9.757864179018314487734642,
   9.418205098674231834365855, 8.716742696740441331826332, 7.810921393044155891516311,
   6.431017571480503569603115, 5.352284429223217010473945, 4.264166572381902220456595,
   3.146731274078888418443967, 2.110381378837380417223812, 1.374308218847557272468407,
   0.816852806590933955277478, 0.462722825330793285925068, 0.248620712756326356362990,
   0.123956253721055037475551, 0.055308372360965848968384, 0.027350935706321286011722,
   0.014351812738380731807042, 0.006349702569816374243816, 0.003359008094616681809608,
   0.001740769570357785607159, 0.000718517550195565328323, 0.000276135039880487419620,
   0.000239234644044567168952]

/-- the constants of `W_Z`, spd.rs:357-398 -/
def wZ : List ℚ :=
  [0.036969800625181514774908, 0.103598173440013568979978, 0.478987803819571567043312,
   1.792163744996583485402653, 5.771824395781130156990457, 11.636745739943137323280098,
   17.167100300755482322756507, 19.543652856028778330710338, 18.531923565979919743540449,
   14.127659390788856796916662, 8.860647688085775186550563, 4.850210608565997283392335,
   2.802865920087209250510796, 1.602395157366788280839387, 0.790482541461388854564518,
   0.420112289203490474331915, 0.202225879935962027378338, 0.085630264002262784783781,
   0.036551743379199412575797, 0.019242361617518348448908, 0.014370250615592019410860,
   0.009806589741973237295269, 0.006733684744239111508168, 0.003182758878538118497287,
   0.001398389770691305360878, 0.000434521872054334826977, 0.000138027976671608752692,
   0.000017024039294825980367, -0.000002937167356198579860, 0.000000000000000000000003,
   0.000000000000000000000000, 0.000000000000000000000000, 0.000000000000000000000000,
   0.000000000000000000000000, 0.000000000000000000000000, 0.000000000000000000000000,
   0.000000000000000000000000, 0.000000000000000000000000, 0.000000000000000000000000,
   0.000000000000000000000000]

/-- the constants of `my_basis().0`, uplifting.rs:53-138, and of the identical `MY_RED`, uplifting.rs:315-400 -/
def myR : List ℚ :=
  [0.327457413827055, 0.323750578270541, 0.313439461251577, 0.288879382755265, 0.239205681158886,
   0.189702036890535, 0.121746067959218, 0.074578270669466, 0.0444331586340337, 0.0289286321285029,
   0.0223166534847512, 0.0169113072926318, 0.0141811071179667, 0.0130531426774873,
   0.011986163627845, 0.0112887147124048, 0.0109060664656517, 0.0104007134810042,
   0.0106373602541465, 0.0109076625337741, 0.0110327124480988, 0.0113106565912268,
   0.0111546420569403, 0.0101487704062122, 0.00891858211883843, 0.00768557633847106,
   0.00670570828469526, 0.00599580598764424, 0.00553725664234189, 0.00519378424120663,
   0.00502536226522334, 0.00513636276967508, 0.00543320026053983, 0.00581998590243535,
   0.00640057277462412, 0.00744952868340878, 0.00858363581937657, 0.0103957624651674,
   0.0135654335386492, 0.0193845158399742, 0.0320840712020024, 0.0743560378459411,
   0.624393724178075, 0.91831003276872, 0.949253030175051, 0.958187833329246, 0.958187751332698,
   0.958187625087782, 0.955679060771746, 0.958006154893429, 0.954101573456564, 0.947607606237237,
   0.938681328447549, 0.924466682751434, 0.904606025333056, 0.880412198927933, 0.8477878731517,
   0.805779126623019, 0.752531853871421, 0.686439396844578, 0.61869457086061, 0.540264443959111,
   0.472964416293838, 0.432701596704049, 0.405358045528392, 0.385491834974902, 0.370983584551061,
   0.357608701523081, 0.348712800108393, 0.344880119344691, 0.341917877323291, 0.339531092987129,
   0.337169503774367, 0.336172018527717, 0.335167443433363, 0.334421625306463, 0.334008760376402,
   0.333915792790082, 0.333818454946367, 0.333672774928456, 0.333569513405591]

/-- the constants of `my_basis().1`, uplifting.rs:139-224, and of the identical `MY_GREEN`, uplifting.rs:401-486 -/
def myG : List ℚ :=
  [0.331861713085874, 0.329688187759399, 0.327860021624697, 0.319173580231756, 0.294322583694842,
   0.258697064768736, 0.188894319254765, 0.125388381991689, 0.0786870603106217, 0.0531432708659453,
   0.0422881460313421, 0.0333183455029171, 0.0297559481859724, 0.0303312505369047,
   0.0309885718973007, 0.0316863551888381, 0.0346699615029974, 0.034551957443675,
   0.0406848061948297, 0.0544600373694056, 0.0809052874204737, 0.146348302857044,
   0.379679643296617, 0.766744268654033, 0.87621474761337, 0.918491655613843, 0.940655562534437,
   0.95373188453302, 0.961643279840238, 0.967200019685078, 0.970989746390046, 0.972852303563554,
   0.973116594076444, 0.973351069154143, 0.973351115544369, 0.972261079731725, 0.973351021746917,
   0.973148495185693, 0.971061306300914, 0.966371305955183, 0.954941967502548, 0.913578989551261,
   0.364348803907687, 0.0715072425408851, 0.0412304344713751, 0.0324238741836685,
   0.0319246297982003, 0.0312760331730969, 0.0326303704290574, 0.0295308721490739,
   0.0315617611702464, 0.0356742182708204, 0.0414030053955673, 0.0506042604489561,
   0.0634343003817003, 0.0789182452939229, 0.0995427426653747, 0.125595760093287, 0.15759091044168,
   0.19539823904421, 0.231474474772178, 0.268852136095262, 0.296029164217928, 0.309754994441945,
   0.317815883383822, 0.322990347389898, 0.326353847938009, 0.32914390227898, 0.330808726803682,
   0.331482689922243, 0.331984550352389, 0.332341172522545, 0.332912009415539, 0.332919279695214,
   0.333027672578856, 0.33317970467326, 0.333247030974549, 0.333259349210601, 0.333275050279383,
   0.333294328448732, 0.333309424957775]

/-- the constants of `my_basis().2`, uplifting.rs:225-310, and of the identical `MY_BLUE`, uplifting.rs:487-572 -/
def myB : List ℚ :=
  [0.340680791548052, 0.346561186624852, 0.358700493140351, 0.391947026588195, 0.466471730587333,
   0.551600895598602, 0.689359610948928, 0.800033346878607, 0.876879780935314, 0.917928097443955,
   0.935395200669632, 0.949770347115183, 0.95606294480524, 0.956615606890316, 0.957025264931328,
   0.957024930534713, 0.954423972737066, 0.955047329020204, 0.948677833093334, 0.934632299842328,
   0.908061999852269, 0.842341039463727, 0.609165715365647, 0.223106960959533, 0.114866670291336,
   0.0738227678957437, 0.0526387287910555, 0.0402723090168887, 0.0328194626509591,
   0.0276061959270456, 0.0239848911270394, 0.0220113333527922, 0.0214502052559966,
   0.0208289445095685, 0.0202483113888087, 0.0202893914512066, 0.018065342335913,
   0.0164557422344685, 0.0153732601340955, 0.0142441784845517, 0.0129739615543347,
   0.0120649741345218, 0.0112574781603901, 0.0101827246716942, 0.00951653538723741,
   0.00938829272866817, 0.00988761909067028, 0.0105363420064589, 0.0116905688374448,
   0.0124629728871037, 0.0143366651774203, 0.0167181753275443, 0.0199156660750025,
   0.024929056163281, 0.0319596735860402, 0.0406695540952484, 0.0526693824219396,
   0.0686251105141947, 0.0898772323000136, 0.118162358926434, 0.149830947442133, 0.190883409341834,
   0.231006403025217, 0.257543385422202, 0.276826038721536, 0.291517772810795, 0.302662506083233,
   0.313247301302886, 0.320478325124633, 0.323636994707961, 0.3260973088469, 0.328127369340184,
   0.329917975958888, 0.330907901216649, 0.331803633095995, 0.332396627255361, 0.332740780726824,
   0.332820857081489, 0.332901731283444, 0.333025967488632, 0.333111083081497]

/-- the constants of `SMITS_WHITE`, uplifting.rs:573-609 -/
def smitsWhite : List ℚ :=
  [1.0618958571272863, 1.0615019980348779, 1.0614335379927147, 1.0622711654692485,
   1.0622036218416742, 1.0625059965187085, 1.0623938486985884, 1.0624706448043137,
   1.0625048144827762, 1.0624366131308856, 1.0620694238892607, 1.0613167586932164,
   1.0610334029377020, 1.0613868564828413, 1.0614215366116762, 1.0620336151299086,
   1.0625497454805051, 1.0624317487992085, 1.0625249140554480, 1.0624277664486914,
   1.0624749854090769, 1.0625538581025402, 1.0625326910104864, 1.0623922312225325,
   1.0623650980354129, 1.0625256476715284, 1.0612277619533155, 1.0594262608698046,
   1.0599810758292072, 1.0602547314449409, 1.0601263046243634, 1.0606565756823634]

/-- the constants of `SMITS_CYAN`, uplifting.rs:610-646 -/
def smitsCyan : List ℚ :=
  [1.0414628021426751, 1.0328661533771188, 1.0126146228964314, 1.0350460524836209,
   1.0078661447098567, 1.0422280385081280, 1.0442596738499825, 1.0535238290294409,
   1.0180776226938120, 1.0442729908727713, 1.0529362541920750, 1.0537034271160244,
   1.0533901869215969, 1.0537782700979574, 1.0527093770467102, 1.0530449040446797,
   1.0550554640191208, 1.0553673610724821, 1.0454306634683976, 6.2348950639230805e-1,
   1.8038071613188977e-1, -7.6303759201984539e-3, -1.5217847035781367e-4, -7.5102257347258311e-3,
   -2.1708639328491472e-3, 6.5919466602369636e-4, 1.2278815318539780e-2, -4.4669775637208031e-3,
   1.7119799082865147e-2, 4.9211089759759801e-3, 5.8762925143334985e-3, 2.5259399415550079e-2]

/-- the constants of `SMITS_MAGENTA`, uplifting.rs:647-683 -/
def smitsMagenta : List ℚ :=
  [9.9422138151236850e-1, 9.8986937122975682e-1, 9.8293658286116958e-1, 9.9627868399859310e-1,
   1.0198955019000133, 1.0166395501210359, 1.0220913178757398, 9.9651666040682441e-1,
   1.0097766178917882, 1.0215422470827016, 6.4031953387790963e-1, 2.5012379477078184e-3,
   6.5339939555769944e-3, 2.8334080462675826e-3, -5.1209675389074505e-11, -9.0592291646646381e-3,
   3.3936718323331200e-3, -3.0638741121828406e-3, 2.2203936168286292e-1, 6.3141140024811970e-1,
   9.7480985576500956e-1, 9.7209562333590571e-1, 1.0173770302868150, 9.9875194322734129e-1,
   9.4701725739602238e-1, 8.5258623154354796e-1, 9.4897798581660842e-1, 9.4751876096521492e-1,
   9.9598944191059791e-1, 8.6301351503809076e-1, 8.9150987853523145e-1, 8.4866492652845082e-1]

/-- the constants of `SMITS_YELLOW`, uplifting.rs:684-720 -/
def smitsYellow : List ℚ :=
  [5.5740622924920873e-3, -4.7982831631446787e-3, -5.2536564298613798e-3, -6.4571480044499710e-3,
   -5.9693514658007013e-3, -2.1836716037686721e-3, 1.6781120601055327e-2, 9.6096355429062641e-2,
   2.1217357081986446e-1, 3.6169133290685068e-1, 5.3961011543232529e-1, 7.4408810492171507e-1,
   9.2209571148394054e-1, 1.0460304298411225, 1.0513824989063714, 1.0511991822135085,
   1.0510530911991052, 1.0517397230360510, 1.0516043086790485, 1.0511944032061460,
   1.0511590325868068, 1.0516612465483031, 1.0514038526836869, 1.0515941029228475,
   1.0511460436960840, 1.0515123758830476, 1.0508871369510702, 1.0508923708102380,
   1.0477492815668303, 1.0493272144017338, 1.0435963333422726, 1.0392280772051465]

/-- the constants of `SMITS_RED`, uplifting.rs:721-757 -/
def smitsRed : List ℚ :=
  [1.6575604867086180e-1, 1.1846442802747797e-1, 1.2408293329637447e-1, 1.1371272058349924e-1,
   7.8992434518899132e-2, 3.2205603593106549e-2, -1.0798365407877875e-2, 1.8051975516730392e-2,
   5.3407196598730527e-3, 1.3654918729501336e-2, -5.9564213545642841e-3, -1.8444365067353252e-3,
   -1.0571884361529504e-2, -2.9375521078000011e-3, -1.0790476271835936e-2, -8.0224306697503633e-3,
   -2.2669167702495940e-3, 7.0200240494706634e-3, -8.1528469000299308e-3, 6.0772866969252792e-1,
   9.8831560865432400e-1, 9.9391691044078823e-1, 1.0039338994753197, 9.9234499861167125e-1,
   9.9926530858855522e-1, 1.0084621557617270, 9.8358296827441216e-1, 1.0085023660099048,
   9.7451138326568698e-1, 9.8543269570059944e-1, 9.3495763980962043e-1, 9.8713907792319400e-1]

/-- the constants of `SMITS_GREEN`, uplifting.rs:758-794 -/
def smitsGreen : List ℚ :=
  [2.6494153587602255e-3, -5.0175013429732242e-3, -1.2547236272489583e-2, -9.4554964308388671e-3,
   -1.2526086181600525e-2, -7.9170697760437767e-3, -7.9955735204175690e-3, -9.3559433444469070e-3,
   6.5468611982999303e-2, 3.9572875517634137e-1, 7.5244022299886659e-1, 9.6376478690218559e-1,
   9.9854433855162328e-1, 9.9992977025287921e-1, 9.9939086751140449e-1, 9.9994372267071396e-1,
   9.9939121813418674e-1, 9.9911237310424483e-1, 9.6019584878271580e-1, 6.3186279338432438e-1,
   2.5797401028763473e-1, 9.4014888527335638e-3, -3.0798345608649747e-3, -4.5230367033685034e-3,
   -6.8933410388274038e-3, -9.0352195539015398e-3, -8.5913667165340209e-3, -8.3690869120289398e-3,
   -7.8685832338754313e-3, -8.3657578711085132e-6, 5.4301225442817177e-3, -2.7745589759259194e-3]

/-- the constants of `SMITS_BLUE`, uplifting.rs:795-831 -/
def smitsBlue : List ℚ :=
  [9.9209771469720676e-1, 9.8876426059369127e-1, 9.9539040744505636e-1, 9.9529317353008218e-1,
   9.9181447411633950e-1, 1.0002584039673432, 9.9968478437342512e-1, 9.9988120766657174e-1,
   9.8504012146370434e-1, 7.9029849053031276e-1, 5.6082198617463974e-1, 3.3133458513996528e-1,
   1.3692410840839175e-1, 1.8914906559664151e-2, -5.1129770932550889e-6, -4.2395493167891873e-4,
   -4.1934593101534273e-4, 1.7473028136486615e-3, 3.7999160177631316e-3, -5.5101474906588642e-4,
   -4.3716662898480967e-5, 7.5874501748732798e-3, 2.5795650780554021e-2, 3.8168376532500548e-2,
   4.9489586408030833e-2, 4.9595992290102905e-2, 4.9814819505812249e-2, 3.9840911064978023e-2,
   3.0501024937233868e-2, 2.1243054765241080e-2, 6.9596532104356399e-3, 4.1733649330980525e-3]

end CS.Tables
