/-
GENERATED (see DESIGN.md) from cpp/qugar/quadrature_lib.cpp: rows of `Gauss::get_quad_data` for n = 71..86 points.
Every decimal literal of the source is written as an integer multiple of 10^(-40) (exactly, no rounding); the
rounding of the literals to `double` is not modelled.
-/
namespace Qugar.GaussTable

/-- n = 71. quadrature_lib.cpp:2521-2591. -/
def b71 : List (Nat × Nat) := [
  (2827789401315362191700264171056044000, 7256336650146986342490205134301228000),
  (14893458743724349671637009943819570000, 16877777483653379325633453041621350000),
  (36576075646792150290971826418195470000, 26480914220129463163398105073820720000),
  (67838613658693159539290766667993940000, 36034176409157466936723267109696830000),
  (108621319431991035625879642309720400000, 45518132309960029256583737723607860000),
  (158845612868373271598477043791693900000, 54914300771492758531372726035770700000),
  (218414594794735625576478125135581200000, 64204498340439030352089763022448200000),
  (287213300388644204378021631106853100000, 73370776673057646002038139900323250000),
  (365108938745642946159347456356102100000, 82395436037311982752962203099937590000),
  (451951155077328202791825488575532500000, 91261053523393352511646901625669740000),
  (547572323223967441630441195038410300000, 99950514661750556437425718637416200000),
  (651787870218462944264558984670844400000, 108447045679926839809161632311884500000),
  (764396633040630155294664040686831700000, 116734245546116263158574765887984000000),
  (885181247162236238053174748506604800000, 124796117471569365276378355365770500000),
  (1013908566253410196802546289395113000000, 132617099710789540040527270262802300000),
  (1150330112294816762974173191525197000000, 140182095558707453089900069660420000000),
  (1294182555253115759948279466257627000000, 147476502468544062324682437703223900000),
  (1445188221407278145126973700954245000000, 154486240225453608493029204363685300000),
  (1603055629351777118577109373197779000000, 161197778117217634709535801347594900000),
  (1767480052646061785992982604462150000000, 167598161047270154172030644682002700000),
  (1938144108026588318448119546836371000000, 173675034538410941876826365350545300000),
  (2114718368047400947571005014085247000000, 179416668578244553889842136100417100000),
  (2296861996967563219975443332044107000000, 184811980259910159280414588600689300000),
  (2484223408658549645831973092230367000000, 189850555174155781072089809592644100000),
  (2676440945262010885262106863509079000000, 194522667511314737462013714521231200000),
  (2873143575288152220683742563905252000000, 198819298834287908371685292560514700000),
  (3073951609807363520051398359923494000000, 202732155486234482174626109734656400000),
  (3278477435352764876447662649163327000000, 206253684599330121245544465185315100000),
  (3486326262119043117825289654237425000000, 209377088673665030947713016367801500000),
  (3697096886013406689880367735537904000000, 212096338698122965176696633216447900000),
  (3910382463087733322328084867912045000000, 214406185787902175103035431759342000000),
  (4125771294857075684151562050712810000000, 216302171316206332994281278081804000000),
  (4342847622988669564935450392469187000000, 217780635520542666855669861814377400000),
  (4561192431827496588190965483067934000000, 218838724567010724861549125430131900000),
  (4780384257209323353338915324266396000000, 219474396058942931606262833079278200000),
  (5000000000000000000000000000000000000000, 219686422979261828791129873229644700000),
  (5219615742790676646661084675733604000000, 219474396058942931606262833079278200000),
  (5438807568172503411809034516932066000000, 218838724567010724861549125430131900000),
  (5657152377011330435064549607530813000000, 217780635520542666855669861814377400000),
  (5874228705142924315848437949287190000000, 216302171316206332994281278081804000000),
  (6089617536912266677671915132087954000000, 214406185787902175103035431759342000000),
  (6302903113986593310119632264462096000000, 212096338698122965176696633216447900000),
  (6513673737880956882174710345762576000000, 209377088673665030947713016367801500000),
  (6721522564647235123552337350836673000000, 206253684599330121245544465185315100000),
  (6926048390192636479948601640076506000000, 202732155486234482174626109734656400000),
  (7126856424711847779316257436094748000000, 198819298834287908371685292560514700000),
  (7323559054737989114737893136490921000000, 194522667511314737462013714521231200000),
  (7515776591341450354168026907769633000000, 189850555174155781072089809592644100000),
  (7703138003032436780024556667955893000000, 184811980259910159280414588600689300000),
  (7885281631952599052428994985914754000000, 179416668578244553889842136100417100000),
  (8061855891973411681551880453163629000000, 173675034538410941876826365350545300000),
  (8232519947353938214007017395537850000000, 167598161047270154172030644682002700000),
  (8396944370648222881422890626802220000000, 161197778117217634709535801347594900000),
  (8554811778592721854873026299045755000000, 154486240225453608493029204363685300000),
  (8705817444746884240051720533742373000000, 147476502468544062324682437703223900000),
  (8849669887705183237025826808474803000000, 140182095558707453089900069660420000000),
  (8986091433746589803197453710604887000000, 132617099710789540040527270262802300000),
  (9114818752837763761946825251493395000000, 124796117471569365276378355365770500000),
  (9235603366959369844705335959313169000000, 116734245546116263158574765887984000000),
  (9348212129781537055735441015329156000000, 108447045679926839809161632311884500000),
  (9452427676776032558369558804961590000000, 99950514661750556437425718637416200000),
  (9548048844922671797208174511424468000000, 91261053523393352511646901625669740000),
  (9634891061254357053840652543643898000000, 82395436037311982752962203099937590000),
  (9712786699611355795621978368893146000000, 73370776673057646002038139900323250000),
  (9781585405205264374423521874864419000000, 64204498340439030352089763022448200000),
  (9841154387131626728401522956208307000000, 54914300771492758531372726035770700000),
  (9891378680568008964374120357690280000000, 45518132309960029256583737723607860000),
  (9932161386341306840460709233332006000000, 36034176409157466936723267109696830000),
  (9963423924353207849709028173581804000000, 26480914220129463163398105073820720000),
  (9985106541256275650328362990056180000000, 16877777483653379325633453041621350000),
  (9997172210598684637808299735828943000000, 7256336650146986342490205134301228000)]

/-- n = 72. quadrature_lib.cpp:2592-2663. -/
def b72 : List (Nat × Nat) := [
  (2750327735186789090730911763958951000, 7057581969867170678595308585452029000),
  (14485641786354607670167318238642670000, 16415848873337479009502564511899420000),
  (35575244915990458859480795483097640000, 25757180093954434541253173790116610000),
  (65984238120847670959633037726989020000, 35051361609309316480406622278381410000),
  (105656107213831141019066350224126000000, 44279980368530766919787067637648690000),
  (154516510006097870389145301778580800000, 53425540826759485794791538437614860000),
  (212473762111508871678983471015746800000, 62470828099368788838914456813430490000),
  (279419073637310174964095118346360400000, 71398845272770966332776464791395450000),
  (355226770595409947138881004406427500000, 80192824751425776090806060894363680000),
  (439754536556642650384850767430843200000, 88836253946003267971798977294131710000),
  (532843682059543719020514771569447800000, 97312904316471390215086157076581540000),
  (634319443506105473591459150973357700000, 105606861082202767549097598501698200000),
  (743991311727810744440249995614420900000, 113702552775178772279656715317291300000),
  (861653389886228426917199051323753100000, 121584780322095821631735710878851400000),
  (987084780153540739864985194684151100000, 129238745503279451419488612962251900000),
  (1120049998500087189289016580931953000000, 136650078694754672168981241215661600000),
  (1260299416835838046645970027307615000000, 143804865823508805475625068550188700000),
  (1407569731688825193187692125688122000000, 150689674476877396464913709937335400000),
  (1561584458547660962542953108454177000000, 157291579112809069888879677436914400000),
  (1722054450943994719255515282898780000000, 163598185321469233521563505416013100000),
  (1888678443302659044961381027238099000000, 169597653091430297485980748875839300000),
  (2061143616541722003981135083568004000000, 175278719036089352170692052599667200000),
  (2239126185361428012998708825163775000000, 180630717538189964928155289511013300000),
  (2422292006119982380699206724542538000000, 185643600772514497302776060107725000000),
  (2610297204155297714081244797983655000000, 190307957569010819171877640731096100000),
  (2802788819375196339580621105894787000000, 194615031080848318999814663829263000000),
  (2999405468904191936486461629212303000000, 198556735224174508911993193952278500000),
  (3199778025542903812299631137251374000000, 202125669858669850216644571281709100000),
  (3403530310766439143335087676314129000000, 205315134680375305509680172757530400000),
  (3610279800960761965099445680726288000000, 208119141800692991038039036331298000000),
  (3819638345571200374710974610974710000000, 210532426987932320732936408933736500000),
  (4031212895814869700984335273844408000000, 212550459550288600389004138277705700000),
  (4244606242588949848366464520377886000000, 214169450841694068334199097040171300000),
  (4459417762189485925951833561538674000000, 215386361374568498726251802985188900000),
  (4675244168440714429626622280536791000000, 216198906526113087426325705961648900000),
  (4891680269822879776648368104423404000000, 216605560827432685381969184496905600000),
  (5108319730177120223351631895576596000000, 216605560827432685381969184496905600000),
  (5324755831559285570373377719463210000000, 216198906526113087426325705961648900000),
  (5540582237810514074048166438461326000000, 215386361374568498726251802985188900000),
  (5755393757411050151633535479622114000000, 214169450841694068334199097040171300000),
  (5968787104185130299015664726155592000000, 212550459550288600389004138277705700000),
  (6180361654428799625289025389025291000000, 210532426987932320732936408933736500000),
  (6389720199039238034900554319273713000000, 208119141800692991038039036331298000000),
  (6596469689233560856664912323685871000000, 205315134680375305509680172757530400000),
  (6800221974457096187700368862748626000000, 202125669858669850216644571281709100000),
  (7000594531095808063513538370787697000000, 198556735224174508911993193952278500000),
  (7197211180624803660419378894105213000000, 194615031080848318999814663829263000000),
  (7389702795844702285918755202016344000000, 190307957569010819171877640731096100000),
  (7577707993880017619300793275457463000000, 185643600772514497302776060107725000000),
  (7760873814638571987001291174836225000000, 180630717538189964928155289511013300000),
  (7938856383458277996018864916431996000000, 175278719036089352170692052599667200000),
  (8111321556697340955038618972761901000000, 169597653091430297485980748875839300000),
  (8277945549056005280744484717101220000000, 163598185321469233521563505416013100000),
  (8438415541452339037457046891545823000000, 157291579112809069888879677436914400000),
  (8592430268311174806812307874311878000000, 150689674476877396464913709937335400000),
  (8739700583164161953354029972692385000000, 143804865823508805475625068550188700000),
  (8879950001499912810710983419068047000000, 136650078694754672168981241215661600000),
  (9012915219846459260135014805315849000000, 129238745503279451419488612962251900000),
  (9138346610113771573082800948676246000000, 121584780322095821631735710878851400000),
  (9256008688272189255559750004385580000000, 113702552775178772279656715317291300000),
  (9365680556493894526408540849026643000000, 105606861082202767549097598501698200000),
  (9467156317940456280979485228430552000000, 97312904316471390215086157076581540000),
  (9560245463443357349615149232569157000000, 88836253946003267971798977294131710000),
  (9644773229404590052861118995593572000000, 80192824751425776090806060894363680000),
  (9720580926362689825035904881653640000000, 71398845272770966332776464791395450000),
  (9787526237888491128321016528984254000000, 62470828099368788838914456813430490000),
  (9845483489993902129610854698221419000000, 53425540826759485794791538437614860000),
  (9894343892786168858980933649775874000000, 44279980368530766919787067637648690000),
  (9934015761879152329040366962273011000000, 35051361609309316480406622278381410000),
  (9964424755084009541140519204516902000000, 25757180093954434541253173790116610000),
  (9985514358213645392329832681761357000000, 16415848873337479009502564511899420000),
  (9997249672264813210909269088236041000000, 7057581969867170678595308585452029000)]

/-- n = 73. quadrature_lib.cpp:2664-2736. -/
def b73 : List (Nat × Nat) := [
  (2676005770594145017644035259807738000, 6866882313798096119921354046664105000),
  (14094346141943663732192571187370140000, 15972621886445172610388585437165370000),
  (34614922055274242223978959557714810000, 25062692858030951319063497643304060000),
  (64204816875339426094857835192237160000, 34108156745873961811046696851032900000),
  (102810539717581877186475059609243200000, 43091552397661238069559083693291140000),
  (150361704725070436264961683451917100000, 51996304975002661006520969320019210000),
  (206771496510128897930743714855994700000, 60806104646405563638816115438688110000),
  (271936891552582140341660744977993200000, 69504843941573254337598172120041000000),
  (345738863093877200476508808277419500000, 78076627167957114977668055307757460000),
  (428042604118717926291582367745887800000, 86505793812445415028035038242319510000),
  (518697775766543894755309050257005100000, 94776945243350108448679844923618510000),
  (617538782896742500870285598464453600000, 102874972101805845830097508784392200000),
  (724385077028502577460045858002664700000, 110785081585200360283849011815221900000),
  (839041486375451281221058303511560900000, 118492824321094873133046626357837300000),
  (961298572486320375964693798159974300000, 125984120687691564066661261272143800000),
  (1090933012891776243329543515236583000000, 133245286493637414761152296590957900000),
  (1227708009083382598807773111974968000000, 140263057952860301619011171706226700000),
  (1371373719092200907484321354659465000000, 147024615900582800527286149905123900000),
  (1521667713883686413898901595505791000000, 153517609202167524690630083943714500000),
  (1678315456739018305588119392436970000000, 159730177309883532432507184492921400000),
  (1841030804749407717444796189885840000000, 165650971925219203385343997174443700000),
  (2009516531508645119998005706552579000000, 171269177726511077070647591308817500000),
  (2183464870049917436318787128841228000000, 176574532123641437545315369143406000000),
  (2362558075035645315997794798029119000000, 181557344003488923451733325388545400000),
  (2546469003173740061498888266861090000000, 186208511431748865784471057252960200000),
  (2734861710800273024040047360019677000000, 190519538278699002977540391826156300000),
  (2927392067537121180554395360851565000000, 194482549738483697602378009055126400000),
  (3123708384903742485471305401419455000000, 198090306713530716582540229797749600000),
  (3323452058734887719421294206756356000000, 201336219037800166824708421656206600000),
  (3526258224230816158720724512324616000000, 204214357514694307746802792817845400000),
  (3731756422443493032220976074110341000000, 206719464747627472634416709173440100000),
  (3939571276981347367363782069260128000000, 208846964743464268770508490101525200000),
  (4149323179696496207471772152765027000000, 210592971271278181344727610771750600000),
  (4360628984101928491226604418727734000000, 211954294961157972026869921695713200000),
  (4573102705252018495020714314219966000000, 212928449130091935128815040357591900000),
  (4786356224807930044071546111437871000000, 213513654324286110383004948320330900000),
  (5000000000000000000000000000000000000000, 213708841569617812057274772531896800000),
  (5213643775192069955928453888562129000000, 213513654324286110383004948320330900000),
  (5426897294747981504979285685780034000000, 212928449130091935128815040357591900000),
  (5639371015898071508773395581272266000000, 211954294961157972026869921695713200000),
  (5850676820303503792528227847234973000000, 210592971271278181344727610771750600000),
  (6060428723018652632636217930739872000000, 208846964743464268770508490101525200000),
  (6268243577556506967779023925889659000000, 206719464747627472634416709173440100000),
  (6473741775769183841279275487675384000000, 204214357514694307746802792817845400000),
  (6676547941265112280578705793243644000000, 201336219037800166824708421656206600000),
  (6876291615096257514528694598580545000000, 198090306713530716582540229797749600000),
  (7072607932462878819445604639148435000000, 194482549738483697602378009055126400000),
  (7265138289199726975959952639980323000000, 190519538278699002977540391826156300000),
  (7453530996826259938501111733138910000000, 186208511431748865784471057252960200000),
  (7637441924964354684002205201970881000000, 181557344003488923451733325388545400000),
  (7816535129950082563681212871158772000000, 176574532123641437545315369143406000000),
  (7990483468491354880001994293447421000000, 171269177726511077070647591308817500000),
  (8158969195250592282555203810114161000000, 165650971925219203385343997174443700000),
  (8321684543260981694411880607563030000000, 159730177309883532432507184492921400000),
  (8478332286116313586101098404494209000000, 153517609202167524690630083943714500000),
  (8628626280907799092515678645340536000000, 147024615900582800527286149905123900000),
  (8772291990916617401192226888025032000000, 140263057952860301619011171706226700000),
  (8909066987108223756670456484763417000000, 133245286493637414761152296590957900000),
  (9038701427513679624035306201840025000000, 125984120687691564066661261272143800000),
  (9160958513624548718778941696488439000000, 118492824321094873133046626357837300000),
  (9275614922971497422539954141997335000000, 110785081585200360283849011815221900000),
  (9382461217103257499129714401535547000000, 102874972101805845830097508784392200000),
  (9481302224233456105244690949742995000000, 94776945243350108448679844923618510000),
  (9571957395881282073708417632254112000000, 86505793812445415028035038242319510000),
  (9654261136906122799523491191722581000000, 78076627167957114977668055307757460000),
  (9728063108447417859658339255022007000000, 69504843941573254337598172120041000000),
  (9793228503489871102069256285144006000000, 60806104646405563638816115438688110000),
  (9849638295274929563735038316548083000000, 51996304975002661006520969320019210000),
  (9897189460282418122813524940390757000000, 43091552397661238069559083693291140000),
  (9935795183124660573905142164807763000000, 34108156745873961811046696851032900000),
  (9965385077944725757776021040442286000000, 25062692858030951319063497643304060000),
  (9985905653858056336267807428812630000000, 15972621886445172610388585437165370000),
  (9997323994229405854982355964740192000000, 6866882313798096119921354046664105000)]

/-- n = 74. quadrature_lib.cpp:2737-2810. -/
def b74 : List (Nat × Nat) := [
  (2604656098352378644777424452357682000, 6683808250349417751643745682339743000),
  (13718691444918045809679518277710850000, 15547100749483773393366830606645480000),
  (33692950976775136430575360792171720000, 24395898792970722921449058835207920000),
  (62496366918807201964378364302590520000, 33202464545571788173806243537628610000),
  (100078272843498319505979667957980500000, 41950227169856985320441704254146120000),
  (146371979787406365903227200886275300000, 50623472691436527105599680090384030000),
  (201295222702355436500413919807492600000, 59206737737498336615842370596676710000),
  (264750367858074958636858257927414800000, 67684747058937471705266756772371210000),
  (336624602689727169571994351490662200000, 76042421217006174044373703637698190000),
  (416790141785467696614258708569783300000, 84264897910124267924237363832181590000),
  (505104456190521022081422980993608100000, 92337556544899398914268648296288860000),
  (601410527739555953856183676630265300000, 100246043513974721263673277352384700000),
  (705537128670082116017568063560404100000, 107976297408379444848497736610307800000),
  (817299126285921304158259914893356700000, 115514573874579115154663134445872400000),
  (936497812240128130623724443587689000000, 122847469979713836228246028916131300000),
  (1062921255902122410900066450468000000000, 129961948003618939333867730218085000000),
  (1196344681205027620156885507232595000000, 136845358598396761512188863562303700000),
  (1336530866315598611187682980046930000000, 143485463266349376710475532243317200000),
  (1483230565422790704698400203927550000000, 149870456112305936699823885501899800000),
  (1636182951898761986407472666248473000000, 155988984829577130166861755528041500000),
  (1795116082046538057023290273597350000000, 161830170881084997626400932450683800000),
  (1959747378611100872374185472645408000000, 167383628839143831318612370108335000000),
  (2129784133195029237490536898693515000000, 172639484849132305016669868993030300000),
  (2304924026685914583796364836768476000000, 177588394184004799629269347269289300000),
  (2484855666770574170429634780610912000000, 182221557858292822409054537581404800000),
  (2669259141580594082889700840122908000000, 186530738271970778668533428128476300000),
  (2857806588484983603120853529898827000000, 190508273856316244481758283293175000000),
  (3050162777018746247144640350167171000000, 194147092695688538790411364559410700000),
  (3245985704911009762537325155857647000000, 197440725100982341618163602451700500000),
  (3444927206153046814751211391953496000000, 200383315112384833795755859616884700000),
  (3646633570025097972311638793648585000000, 202969630910973640290384099139542100000),
  (3850746169981414844909152833871237000000, 205195074120636334237094049082584500000),
  (4056902101275407108446394661600329000000, 207055687983767554100340350099407500000),
  (4264734826191232941355743215557376000000, 208548164396203771893549668043117200000),
  (4473874825734645140680056003760247000000, 209669849788885107349776039199434900000),
  (4683950256624418540521366991116894000000, 210418749845784862374478825011914500000),
  (4894587612416258477762323907429763000000, 210793533049717110611153324451698200000),
  (5105412387583741522237676092570237000000, 210793533049717110611153324451698200000),
  (5316049743375581459478633008883106000000, 210418749845784862374478825011914500000),
  (5526125174265354859319943996239753000000, 209669849788885107349776039199434900000),
  (5735265173808767058644256784442624000000, 208548164396203771893549668043117200000),
  (5943097898724592891553605338399671000000, 207055687983767554100340350099407500000),
  (6149253830018585155090847166128763000000, 205195074120636334237094049082584500000),
  (6353366429974902027688361206351415000000, 202969630910973640290384099139542100000),
  (6555072793846953185248788608046504000000, 200383315112384833795755859616884700000),
  (6754014295088990237462674844142353000000, 197440725100982341618163602451700500000),
  (6949837222981253752855359649832829000000, 194147092695688538790411364559410700000),
  (7142193411515016396879146470101173000000, 190508273856316244481758283293175000000),
  (7330740858419405917110299159877092000000, 186530738271970778668533428128476300000),
  (7515144333229425829570365219389088000000, 182221557858292822409054537581404800000),
  (7695075973314085416203635163231524000000, 177588394184004799629269347269289300000),
  (7870215866804970762509463101306485000000, 172639484849132305016669868993030300000),
  (8040252621388899127625814527354592000000, 167383628839143831318612370108335000000),
  (8204883917953461942976709726402649000000, 161830170881084997626400932450683800000),
  (8363817048101238013592527333751527000000, 155988984829577130166861755528041500000),
  (8516769434577209295301599796072450000000, 149870456112305936699823885501899800000),
  (8663469133684401388812317019953070000000, 143485463266349376710475532243317200000),
  (8803655318794972379843114492767405000000, 136845358598396761512188863562303700000),
  (8937078744097877589099933549532001000000, 129961948003618939333867730218085000000),
  (9063502187759871869376275556412311000000, 122847469979713836228246028916131300000),
  (9182700873714078695841740085106643000000, 115514573874579115154663134445872400000),
  (9294462871329917883982431936439596000000, 107976297408379444848497736610307800000),
  (9398589472260444046143816323369735000000, 100246043513974721263673277352384700000),
  (9494895543809478977918577019006392000000, 92337556544899398914268648296288860000),
  (9583209858214532303385741291430217000000, 84264897910124267924237363832181590000),
  (9663375397310272830428005648509338000000, 76042421217006174044373703637698190000),
  (9735249632141925041363141742072585000000, 67684747058937471705266756772371210000),
  (9798704777297644563499586080192507000000, 59206737737498336615842370596676710000),
  (9853628020212593634096772799113725000000, 50623472691436527105599680090384030000),
  (9899921727156501680494020332042019000000, 41950227169856985320441704254146120000),
  (9937503633081192798035621635697409000000, 33202464545571788173806243537628610000),
  (9966307049023224863569424639207829000000, 24395898792970722921449058835207920000),
  (9986281308555081954190320481722289000000, 15547100749483773393366830606645480000),
  (9997395343901647621355222575547642000000, 6683808250349417751643745682339743000)]

/-- n = 75. quadrature_lib.cpp:2811-2885. -/
def b75 : List (Nat × Nat) := [
  (2536122319822717582664028218419575000, 6507958586879279969491127912286180000),
  (13357855188840983454671216280447250000, 15138355073030206456132228940811630000),
  (32807317105536478114764010771136960000, 23755345925076369829493782375773330000),
  (60855166162377399293666599624790120000, 32332324535187692009815960367986150000),
  (97453377012916971141534381323954280000, 40853553536639132018589295890614160000),
  (142538718284680883180931012661590000000, 49304124580570091960258749178203890000),
  (196033181290538429222759996935988900000, 57669366641522479834068380937827580000),
  (257844174603563110390400763765868000000, 65934783814124010598069370985115600000),
  (327864700179464215819029368731339600000, 74086061449072342600688677745455040000),
  (405973543858030043643802523532544100000, 82109085595123200217996530393781870000),
  (492035487257768329530178640319323800000, 89989965628225253189728372404155840000),
  (585901542760522289199538432282013200000, 97715057600639446897854601267775480000),
  (687409211865582872693688270383187300000, 105270987561414211182229713041974800000),
  (796382766725209749514941992969821400000, 112644674569328882252731899912822100000),
  (912633554482293425783023643976917900000, 119823353268584795873827244394328700000),
  (1035960323932182448197930271601841000000, 126794595951081895471042197956654500000),
  (1166149573966790372379526229081817000000, 133546334050604258861770415343575000000),
  (1302975923209837367517432166113196000000, 140066879023902704126295072690530300000),
  (1446202500209794366152203328633893000000, 146344942578629934025167032419923200000),
  (1595581353518652009778080472486354000000, 152369656211072696015688109708841200000),
  (1750853880948688837065565326024237000000, 158130590018748240280161959046959300000),
  (1911751277265370177749070612036056000000, 163617770754671102607613786549840500000),
  (2077994999542110598401963443283025000000, 168821699091670463234778435201810300000),
  (2249297249371772242484925318284652000000, 173733366066652032675492693486047800000),
  (2425361471100416797360040238078252000000, 178344268676202265445591902017076100000),
  (2605882865220984214920954620052114000000, 182646424596451695034255486217708500000),
  (2790548916038258667313322680594515000000, 186632386001660450836531963074133100000),
  (2979039932691731934045965633356905000000, 190295252457568015678154500189389400000),
  (3171029602599820373369909895483087000000, 193628682867162879207332255025878400000),
  (3366185556367368488208000126198847000000, 196626906448175812603837344912947500000),
  (3564169943178513765286491674249592000000, 199284732723281762879826524200972400000),
  (3764640015678826215478799803007599000000, 201597560505707887790871841869634300000),
  (3967248723334201964427627732050474000000, 203561385864686651493789103042759400000),
  (4171645313239310908070252396110071000000, 205172809056960533381112586551076500000),
  (4377475937335498691874577541303156000000, 206429040412335945417304362653279400000),
  (4584384264986945041512514561706136000000, 207327905163095460676241678313179300000),
  (4792012099854602720125543343859992000000, 207867847208906393914997111166901100000),
  (5000000000000000000000000000000000000000, 208047931810707046902335405223940700000),
  (5207987900145397279874456656140008000000, 207867847208906393914997111166901100000),
  (5415615735013054958487485438293864000000, 207327905163095460676241678313179300000),
  (5622524062664501308125422458696844000000, 206429040412335945417304362653279400000),
  (5828354686760689091929747603889929000000, 205172809056960533381112586551076500000),
  (6032751276665798035572372267949526000000, 203561385864686651493789103042759400000),
  (6235359984321173784521200196992400000000, 201597560505707887790871841869634300000),
  (6435830056821486234713508325750408000000, 199284732723281762879826524200972400000),
  (6633814443632631511791999873801154000000, 196626906448175812603837344912947500000),
  (6828970397400179626630090104516913000000, 193628682867162879207332255025878400000),
  (7020960067308268065954034366643095000000, 190295252457568015678154500189389400000),
  (7209451083961741332686677319405485000000, 186632386001660450836531963074133100000),
  (7394117134779015785079045379947886000000, 182646424596451695034255486217708500000),
  (7574638528899583202639959761921748000000, 178344268676202265445591902017076100000),
  (7750702750628227757515074681715347000000, 173733366066652032675492693486047800000),
  (7922005000457889401598036556716975000000, 168821699091670463234778435201810300000),
  (8088248722734629822250929387963944000000, 163617770754671102607613786549840500000),
  (8249146119051311162934434673975763000000, 158130590018748240280161959046959300000),
  (8404418646481347990221919527513646000000, 152369656211072696015688109708841200000),
  (8553797499790205633847796671366107000000, 146344942578629934025167032419923200000),
  (8697024076790162632482567833886804000000, 140066879023902704126295072690530300000),
  (8833850426033209627620473770918182000000, 133546334050604258861770415343575000000),
  (8964039676067817551802069728398159000000, 126794595951081895471042197956654500000),
  (9087366445517706574216976356023082000000, 119823353268584795873827244394328700000),
  (9203617233274790250485058007030179000000, 112644674569328882252731899912822100000),
  (9312590788134417127306311729616813000000, 105270987561414211182229713041974800000),
  (9414098457239477710800461567717987000000, 97715057600639446897854601267775480000),
  (9507964512742231670469821359680677000000, 89989965628225253189728372404155840000),
  (9594026456141969956356197476467456000000, 82109085595123200217996530393781870000),
  (9672135299820535784180970631268661000000, 74086061449072342600688677745455040000),
  (9742155825396436889609599236234132000000, 65934783814124010598069370985115600000),
  (9803966818709461570777240003064011000000, 57669366641522479834068380937827580000),
  (9857461281715319116819068987338410000000, 49304124580570091960258749178203890000),
  (9902546622987083028858465618676045000000, 40853553536639132018589295890614160000),
  (9939144833837622600706333400375210000000, 32332324535187692009815960367986150000),
  (9967192682894463521885235989228864000000, 23755345925076369829493782375773330000),
  (9986642144811159016545328783719552000000, 15138355073030206456132228940811630000),
  (9997463877680177282417335971781581000000, 6507958586879279969491127912286180000)]

/-- n = 76. quadrature_lib.cpp:2886-2961. -/
def b76 : List (Nat × Nat) := [
  (2470258189234609468991252331183301000, 6338958170426798316412296984333057000),
  (13011068223222816542828095828993460000, 14745514768212374501966844758544980000),
  (31956136382365076919042840355987470000, 23139676140187106630643071881958180000),
  (59277733200812807506776208878857000000, 31495902486642229332867101201579520000),
  (94930305121720523740809430835174770000, 39799237386198673105594043146737190000),
  (138853857398115477609599052026621900000, 48035527073568770412021713300246800000),
  (190974366206160864159839419238271200000, 56190842848338436198374547656482820000),
  (251203961445518074575522815156543300000, 64251419237550724724626834079105570000),
  (319441090325946018683885005394108900000, 72203658741383399699448908621268190000),
  (395570693739249407542092874645011000000, 80034149561242854442551136556472260000),
  (479464402272165857277870346478573500000, 87729686457371154770998452413718810000),
  (570980753539586063925448987318245100000, 95277292335952914034011305851756540000),
  (669965431140090223860661319704157200000, 102664239839540105464875259101033600000),
  (776251525083288029945548572290680000000, 109878072672081245840065274011265000000),
  (889659813355126932611146448693842500000, 116906626535055933112398522603241100000),
  (1009999064193999151235947662488089000000, 123738049603298358216322316722959000000),
  (1137066358590951193511632660065485000000, 130360822489929917621372704819532100000),
  (1270647432481947784256806189732003000000, 136763777659137608370762239307806600000),
  (1410517038061481803134972454550077000000, 142936118250270018869875265892843100000),
  (1556439323611797015017376623620779000000, 148867436279525204783536773322177300000),
  (1708168231209286848623836698959531000000, 154547730187457976949684576277736600000),
  (1865447911638667204272739420519535000000, 159967421702108000342675894307068400000),
  (2028013155816035409242468548254605000000, 165117371988958705032707663477985100000),
  (2195589841993812605004191671847211000000, 169988897060281904233712373791283000000),
  (2367895397993787045223462655294819000000, 174573782417753837220627010536988100000),
  (2544639277689030675691273774666854000000, 178864296903569737638896896794120400000),
  (2725523450931368302830796491098475000000, 182853205736648085036220247995420100000),
  (2910242906098363506021702481605513000000, 186533782711908049137835816808561400000),
  (3098486164412477782662477620976427000000, 189899821542026415976176661048490600000),
  (3289935805165189880343993955128859000000, 192945646322533691714605991682277600000),
  (3484269000960461109502924112094549000000, 195666121102592203837537497289561100000),
  (3681158062075028617602972583403169000000, 198056658545310292115733574241496100000),
  (3880270989017629331186812013364594000000, 200113227662984130582308658605722300000),
  (4081272032355427612903777844324098000000, 201832360614220115770478114235330600000),
  (4283822258863662392772459540288300000000, 203211158551473693887274844294897500000),
  (4487580123043864908499745313730960000000, 204247296509142461401958981211033900000),
  (4692202043046943957856661273455857000000, 204939027323969757706542015773141100000),
  (4897342980030006822491266208950211000000, 205285184581147112966298569395823400000),
  (5102657019969993177508733791049789000000, 205285184581147112966298569395823400000),
  (5307797956953056042143338726544143000000, 204939027323969757706542015773141100000),
  (5512419876956135091500254686269040000000, 204247296509142461401958981211033900000),
  (5716177741136337607227540459711700000000, 203211158551473693887274844294897500000),
  (5918727967644572387096222155675902000000, 201832360614220115770478114235330600000),
  (6119729010982370668813187986635406000000, 200113227662984130582308658605722300000),
  (6318841937924971382397027416596831000000, 198056658545310292115733574241496100000),
  (6515730999039538890497075887905451000000, 195666121102592203837537497289561100000),
  (6710064194834810119656006044871141000000, 192945646322533691714605991682277600000),
  (6901513835587522217337522379023573000000, 189899821542026415976176661048490600000),
  (7089757093901636493978297518394487000000, 186533782711908049137835816808561400000),
  (7274476549068631697169203508901525000000, 182853205736648085036220247995420100000),
  (7455360722310969324308726225333147000000, 178864296903569737638896896794120400000),
  (7632104602006212954776537344705181000000, 174573782417753837220627010536988100000),
  (7804410158006187394995808328152789000000, 169988897060281904233712373791283000000),
  (7971986844183964590757531451745396000000, 165117371988958705032707663477985100000),
  (8134552088361332795727260579480465000000, 159967421702108000342675894307068400000),
  (8291831768790713151376163301040468000000, 154547730187457976949684576277736600000),
  (8443560676388202984982623376379221000000, 148867436279525204783536773322177300000),
  (8589482961938518196865027545449923000000, 142936118250270018869875265892843100000),
  (8729352567518052215743193810267997000000, 136763777659137608370762239307806600000),
  (8862933641409048806488367339934515000000, 130360822489929917621372704819532100000),
  (8990000935806000848764052337511912000000, 123738049603298358216322316722959000000),
  (9110340186644873067388853551306158000000, 116906626535055933112398522603241100000),
  (9223748474916711970054451427709320000000, 109878072672081245840065274011265000000),
  (9330034568859909776139338680295843000000, 102664239839540105464875259101033600000),
  (9429019246460413936074551012681755000000, 95277292335952914034011305851756540000),
  (9520535597727834142722129653521426000000, 87729686457371154770998452413718810000),
  (9604429306260750592457907125354989000000, 80034149561242854442551136556472260000),
  (9680558909674053981316114994605891000000, 72203658741383399699448908621268190000),
  (9748796038554481925424477184843457000000, 64251419237550724724626834079105570000),
  (9809025633793839135840160580761729000000, 56190842848338436198374547656482820000),
  (9861146142601884522390400947973378000000, 48035527073568770412021713300246800000),
  (9905069694878279476259190569164825000000, 39799237386198673105594043146737190000),
  (9940722266799187192493223791121143000000, 31495902486642229332867101201579520000),
  (9968043863617634923080957159644013000000, 23139676140187106630643071881958180000),
  (9986988931776777183457171904171006000000, 14745514768212374501966844758544980000),
  (9997529741810765390531008747668817000000, 6338958170426798316412296984333057000)]

/-- n = 77. quadrature_lib.cpp:2962-3038. -/
def b77 : List (Nat × Nat) := [
  (2406926832949951257094798283985860000, 6176455885697048070859346788850871000),
  (12677610653929500625651318328592220000, 14367765418263458286392051629594490000),
  (31137645250608758455444038664083140000, 22547618001029176666191300308612710000),
  (57760808887193463374904851661160090000, 30691480798781709196349488209748380000),
  (92503863344307688058275814038699330000, 38785129750415353659211857507543450000),
  (135309846254458048268469281638855100000, 46815118461932153846309700546061240000),
  (186108467661328440299190661327123900000, 54768214269556771192954953282155630000),
  (244816281997040642382855859096375600000, 62631336846136825936799680304631650000),
  (311336840204694779049289270990268700000, 70391561700135020250839872734741010000),
  (385560853202989000359772823721567000000, 78036136343745656475406264136770010000),
  (467366373393710909894545961542679000000, 85552499532655520881198132711408410000),
  (556618995872179650525825479085048400000, 92928301241707427545898727686449290000),
  (653172079661329700606728102932507500000, 100151422671580881981231170710841500000),
  (756866988851879817652110833493427900000, 107209996027280677525624804727948300000),
  (867533353354989402822066445588441500000, 114092423950647602564548342121190100000),
  (984989348885373863081811004095837100000, 120787398539779224702969393383013100000),
  (1109041995737284290635660280524497000000, 127283919908472018763188805521272600000),
  (1239487475873920293078066897705391000000, 133571314247789454160013951669846800000),
  (1376111467815441356096072427410340000000, 139639251356384842707536229192696700000),
  (1518689498778788876044900161723937000000, 145477761608843806743512454962949500000),
  (1666987313492742532045419707535013000000, 151077252333114993456993448013344900000),
  (1820761259083438164931743942458721000000, 156428523569527166969782344124011300000),
  (1979758685398713075149258069672682000000, 161522783185154877967860124385094800000),
  (2143718360114008745965084199113534000000, 166351661318492726514197250944712800000),
  (2312370897938111304877875862248662000000, 170907224130578396326589646833391500000),
  (2485439203213742410961368452812724000000, 175181986839891392274387670884301400000),
  (2662638925185941026776781700366333000000, 179168926019559813013213177494357600000),
  (2843678925190321589637379153422804000000, 182861491136637272667291650942208900000),
  (3028261754993682197657662673397546000000, 186253615314468594393801376386961800000),
  (3216084145501094647107223411973534000000, 189339725300446601308334131849412900000),
  (3406837505026563456112384594026461000000, 192114750622772618368405836975078900000),
  (3600208426308619389676476242438633000000, 194574131921168928105164097634732900000),
  (3795879201437839011951591001444168000000, 196713828437850759685661530010702200000),
  (3993528343850278216809261713707823000000, 198530324656446553405187720532230100000),
  (4192831116529195341964079501410435000000, 200020636077956187051757554378012400000),
  (4393460065547237066790965898751219000000, 201182314124255420976326263225456200000),
  (4595085558072484343967511065827380000000, 202013450161088780851630971434932700000),
  (4797376323954420370349650935716238000000, 202512678633940159776248021355845500000),
  (5000000000000000000000000000000000000000, 202679179311628251460261308917773900000),
  (5202623676045579629650349064283762000000, 202512678633940159776248021355845500000),
  (5404914441927515656032488934172619000000, 202013450161088780851630971434932700000),
  (5606539934452762933209034101248781000000, 201182314124255420976326263225456200000),
  (5807168883470804658035920498589565000000, 200020636077956187051757554378012400000),
  (6006471656149721783190738286292177000000, 198530324656446553405187720532230100000),
  (6204120798562160988048408998555832000000, 196713828437850759685661530010702200000),
  (6399791573691380610323523757561367000000, 194574131921168928105164097634732900000),
  (6593162494973436543887615405973539000000, 192114750622772618368405836975078900000),
  (6783915854498905352892776588026466000000, 189339725300446601308334131849412900000),
  (6971738245006317802342337326602453000000, 186253615314468594393801376386961800000),
  (7156321074809678410362620846577196000000, 182861491136637272667291650942208900000),
  (7337361074814058973223218299633667000000, 179168926019559813013213177494357600000),
  (7514560796786257589038631547187276000000, 175181986839891392274387670884301400000),
  (7687629102061888695122124137751338000000, 170907224130578396326589646833391500000),
  (7856281639885991254034915800886467000000, 166351661318492726514197250944712800000),
  (8020241314601286924850741930327317000000, 161522783185154877967860124385094800000),
  (8179238740916561835068256057541279000000, 156428523569527166969782344124011300000),
  (8333012686507257467954580292464987000000, 151077252333114993456993448013344900000),
  (8481310501221211123955099838276064000000, 145477761608843806743512454962949500000),
  (8623888532184558643903927572589659000000, 139639251356384842707536229192696700000),
  (8760512524126079706921933102294610000000, 133571314247789454160013951669846800000),
  (8890958004262715709364339719475502000000, 127283919908472018763188805521272600000),
  (9015010651114626136918188995904163000000, 120787398539779224702969393383013100000),
  (9132466646645010597177933554411558000000, 114092423950647602564548342121190100000),
  (9243133011148120182347889166506572000000, 107209996027280677525624804727948300000),
  (9346827920338670299393271897067492000000, 100151422671580881981231170710841500000),
  (9443381004127820349474174520914952000000, 92928301241707427545898727686449290000),
  (9532633626606289090105454038457321000000, 85552499532655520881198132711408410000),
  (9614439146797010999640227176278434000000, 78036136343745656475406264136770010000),
  (9688663159795305220950710729009732000000, 70391561700135020250839872734741010000),
  (9755183718002959357617144140903625000000, 62631336846136825936799680304631650000),
  (9813891532338671559700809338672876000000, 54768214269556771192954953282155630000),
  (9864690153745541951731530718361145000000, 46815118461932153846309700546061240000),
  (9907496136655692311941724185961301000000, 38785129750415353659211857507543450000),
  (9942239191112806536625095148338840000000, 30691480798781709196349488209748380000),
  (9968862354749391241544555961335917000000, 22547618001029176666191300308612710000),
  (9987322389346070499374348681671408000000, 14367765418263458286392051629594490000),
  (9997593073167050048742905201716015000000, 6176455885697048070859346788850871000)]

/-- n = 78. quadrature_lib.cpp:3039-3116. -/
def b78 : List (Nat × Nat) := [
  (2346000037881202406550165539265995000, 6020122830336766401649367257361828000),
  (12356808106378192488509799828105210000, 14004344059193152058064781643132890000),
  (30350191527556284089050972880968940000, 21977980197301733713690925903737860000),
  (56301339531412828077182514853311450000, 29917449722202039948243689175490940000),
  (90169184502247511077410872551069240000, 37809215947198594134890730064121700000),
  (131899607468817789700447682272446200000, 45640496136275436384711776807940420000),
  (181425820066220492200800671809266300000, 53398710787405566767579565541112550000),
  (238668526550683181413941915405229300000, 61071422748949431988414181465319410000),
  (303536065425267034646764273156594600000, 68646339600720741968633637355261630000),
  (375924561099681118198362609453391000000, 76111328400892258466577848822578190000),
  (455718092134058708963368709744893200000, 83454433446719459331061804254353180000),
  (542788877705907105957225691191381900000, 90663894774911643222031839036361950000),
  (636997482636377475343040503641154300000, 97728166716999616889589362244571590000),
  (738193040887211483569992029665022500000, 104635936259388633926890488215229700000),
  (846213497270443636313660913858397300000, 111376141095569433815252373540608500000),
  (960885867028991566156740047815971100000, 117937987307287360482256867575323400000),
  (1082026512894286064643411264485478000000, 124310966631112253807217217184231000000),
  (1209441439188423424647996672293044000000, 130484873275544175149168480900563800000),
  (1342926602505848012507773056527337000000, 136449820258121824322821187716616200000),
  (1482268238480381139397176477892643000000, 142196255234487581311952480931343700000),
  (1627243204116246048380528195532830000000, 147714975793034732058100356028010500000),
  (1777619335136035727034511593216347000000, 152997144190065226447166020724579400000),
  (1933155817774076116002954185983779000000, 158034301501523988694413780958382400000),
  (2093603574420241223892351909278221000000, 162818381168445222040277799513987400000),
  (2258705662496936956266153594098946000000, 167341721914294889864907205192072700000),
  (2428197685930679709890547817039556000000, 171597080013445451451458998131539700000),
  (2601808218559463801574248049176821000000, 175577640891085947374400278311417500000),
  (2779259238797956984663678465264062000000, 179277030035958477225028633916844400000),
  (2960266574864508041765754739505046000000, 182689323208423503240961753781587700000),
  (3144540359857018628371365685323146000000, 185809055927491934253354990189466600000),
  (3331785495948947196086405486351387000000, 188631232221621239321450739009102300000),
  (3521702126962099273885208740591374000000, 191151332629254938248101263086411700000),
  (3713986118559437785057384265546628000000, 193365321436288370019477790634976500000),
  (3908329545288940105931553466402192000000, 195269653138867065736556827456021000000),
  (4104421183698554242187885323131871000000, 196861278121165609686101321686550000000),
  (4301947010732582025453620910582722000000, 198137647539052714781967466098452000000),
  (4500590706611357947357526730806748000000, 199096717401820446125158778896089700000),
  (4700034161388911531820625500443636000000, 199736951845440124396524447877267300000),
  (4899957984377410385239662842792212000000, 200057325592102414943892942871980100000),
  (5100042015622589614760337157207787000000, 200057325592102414943892942871980100000),
  (5299965838611088468179374499556364000000, 199736951845440124396524447877267300000),
  (5499409293388642052642473269193252000000, 199096717401820446125158778896089700000),
  (5698052989267417974546379089417278000000, 198137647539052714781967466098452000000),
  (5895578816301445757812114676868129000000, 196861278121165609686101321686550000000),
  (6091670454711059894068446533597808000000, 195269653138867065736556827456021000000),
  (6286013881440562214942615734453372000000, 193365321436288370019477790634976500000),
  (6478297873037900726114791259408626000000, 191151332629254938248101263086411700000),
  (6668214504051052803913594513648612000000, 188631232221621239321450739009102300000),
  (6855459640142981371628634314676853000000, 185809055927491934253354990189466600000),
  (7039733425135491958234245260494954000000, 182689323208423503240961753781587700000),
  (7220740761202043015336321534735939000000, 179277030035958477225028633916844400000),
  (7398191781440536198425751950823179000000, 175577640891085947374400278311417500000),
  (7571802314069320290109452182960444000000, 171597080013445451451458998131539700000),
  (7741294337503063043733846405901054000000, 167341721914294889864907205192072700000),
  (7906396425579758776107648090721779000000, 162818381168445222040277799513987400000),
  (8066844182225923883997045814016221000000, 158034301501523988694413780958382400000),
  (8222380664863964272965488406783653000000, 152997144190065226447166020724579400000),
  (8372756795883753951619471804467170000000, 147714975793034732058100356028010500000),
  (8517731761519618860602823522107357000000, 142196255234487581311952480931343700000),
  (8657073397494151987492226943472663000000, 136449820258121824322821187716616200000),
  (8790558560811576575352003327706956000000, 130484873275544175149168480900563800000),
  (8917973487105713935356588735514523000000, 124310966631112253807217217184231000000),
  (9039114132971008433843259952184029000000, 117937987307287360482256867575323400000),
  (9153786502729556363686339086141603000000, 111376141095569433815252373540608500000),
  (9261806959112788516430007970334977000000, 104635936259388633926890488215229700000),
  (9363002517363622524656959496358846000000, 97728166716999616889589362244571590000),
  (9457211122294092894042774308808618000000, 90663894774911643222031839036361950000),
  (9544281907865941291036631290255106000000, 83454433446719459331061804254353180000),
  (9624075438900318881801637390546609000000, 76111328400892258466577848822578190000),
  (9696463934574732965353235726843405000000, 68646339600720741968633637355261630000),
  (9761331473449316818586058084594771000000, 61071422748949431988414181465319410000),
  (9818574179933779507799199328190734000000, 53398710787405566767579565541112550000),
  (9868100392531182210299552317727553000000, 45640496136275436384711776807940420000),
  (9909830815497752488922589127448931000000, 37809215947198594134890730064121700000),
  (9943698660468587171922817485146688000000, 29917449722202039948243689175490940000),
  (9969649808472443715910949027119031000000, 21977980197301733713690925903737860000),
  (9987643191893621807511490200171894000000, 14004344059193152058064781643132890000),
  (9997653999962118797593449834460734000000, 6020122830336766401649367257361828000)]

/-- n = 79. quadrature_lib.cpp:3117-3195. -/
def b79 : List (Nat × Nat) := [
  (2287357602150778379242120215315621000, 5869650649783065106011072355375493000),
  (12048028315292824115729104983590340000, 13654535328774279592666950245106560000),
  (29592226072286887944225053591248540000, 21429645565632656091094184161425350000),
  (54896461561078310626209812213294270000, 29172299343817327946067430758377170000),
  (87921703743605349507093111880181430000, 36869605656650884151955918049806940000),
  (128616502010964409105829052227529100000, 44509404913262431268698964027404590000),
  (176917354425676069462752045675859200000, 52079731022566912895917346551956310000),
  (232748860553654320183619227882953200000, 59568751075584993497999366113359060000),
  (296023853467113748499916316081560200000, 66964766724128380986544712327686910000),
  (366643540595480631677386079966009500000, 74256227631750346592894754965463380000),
  (444497659827095998774969055158336200000, 81431747880958410459186281068616780000),
  (529464652478824493447851060228341100000, 88480123121552089323315125333754110000),
  (621411853482352616702412825093254000000, 95390347794687442923919846855401250000),
  (720195698723903117633645765998494200000, 102151632190704299392216897553977200000),
  (825661949311110589663433000655177300000, 108753419233040398843209848972905000000),
  (937645932460966131175960462680935500000, 115185400928595131384895965965485900000),
  (1055972798654011172174856828093136000000, 121437534443997463197111376878214600000),
  (1180457794664149457708371191506512000000, 127500057775643869736697537560781200000),
  (1310906552043608952373391766105041000000, 133363504985527782689417126878184000000),
  (1447115390615879181208973900687804000000, 139018720977235294722178199163701200000),
  (1588871636504644703611898341199893000000, 144456875788036333908182620633383300000),
  (1735953954203280007375534359263760000000, 149669478374191814478243666798053900000),
  (1888132692167113805585451488797142000000, 154648389867624176441469484096527700000),
  (2045170241389300085733591940056567000000, 159385836283055851802594816468658900000),
  (2206821406400705466720734473538051000000, 163874420655654089267107516515314500000),
  (2372833788114727260518661806323225000000, 168107134590154650249613417683375400000),
  (2542948177919400894520695729016760000000, 172077369203383004412957517959863700000),
  (2716898962401554344256451328840257000000, 175778925443055655641253493357714200000),
  (2894414538071140356339271199868455000000, 179206023766728761446034626704389300000),
  (3075217735438245580388765810762644000000, 182353313165767137646282428232868500000),
  (3259026251780660663804313139341436000000, 185215879520233920799189278108664200000),
  (3445553091926317813955625213743438000000, 187789253271648852389534962851750400000),
  (3634507016362382281287319660556377000000, 190069416401630247727587534028472200000),
  (3825592995971340420613753205404631000000, 192052808705520887027082968807351800000),
  (4018512672684076791704030356197288000000, 193736333351199835340926653300665000000),
  (4212964825330691974858871933097290000000, 195117361714398980132525099046703600000),
  (4408645839961695594165439713832385000000, 196193737482973217774594314953935500000),
  (4605250183905227972759573735222361000000, 196963780023715019671321010503351600000),
  (4802470882820129679705026018786032000000, 197426287006455823768608336344655600000),
  (5000000000000000000000000000000000000000, 197580536281356558545782695634631700000),
  (5197529117179870320294973981213969000000, 197426287006455823768608336344655600000),
  (5394749816094772027240426264777639000000, 196963780023715019671321010503351600000),
  (5591354160038304405834560286167614000000, 196193737482973217774594314953935500000),
  (5787035174669308025141128066902709000000, 195117361714398980132525099046703600000),
  (5981487327315923208295969643802712000000, 193736333351199835340926653300665000000),
  (6174407004028659579386246794595369000000, 192052808705520887027082968807351800000),
  (6365492983637617718712680339443623000000, 190069416401630247727587534028472200000),
  (6554446908073682186044374786256562000000, 187789253271648852389534962851750400000),
  (6740973748219339336195686860658564000000, 185215879520233920799189278108664200000),
  (6924782264561754419611234189237356000000, 182353313165767137646282428232868500000),
  (7105585461928859643660728800131545000000, 179206023766728761446034626704389300000),
  (7283101037598445655743548671159743000000, 175778925443055655641253493357714200000),
  (7457051822080599105479304270983240000000, 172077369203383004412957517959863700000),
  (7627166211885272739481338193676775000000, 168107134590154650249613417683375400000),
  (7793178593599294533279265526461949000000, 163874420655654089267107516515314500000),
  (7954829758610699914266408059943433000000, 159385836283055851802594816468658900000),
  (8111867307832886194414548511202859000000, 154648389867624176441469484096527700000),
  (8264046045796719992624465640736240000000, 149669478374191814478243666798053900000),
  (8411128363495355296388101658800107000000, 144456875788036333908182620633383300000),
  (8552884609384120818791026099312195000000, 139018720977235294722178199163701200000),
  (8689093447956391047626608233894959000000, 133363504985527782689417126878184000000),
  (8819542205335850542291628808493488000000, 127500057775643869736697537560781200000),
  (8944027201345988827825143171906864000000, 121437534443997463197111376878214600000),
  (9062354067539033868824039537319065000000, 115185400928595131384895965965485900000),
  (9174338050688889410336566999344822000000, 108753419233040398843209848972905000000),
  (9279804301276096882366354234001506000000, 102151632190704299392216897553977200000),
  (9378588146517647383297587174906746000000, 95390347794687442923919846855401250000),
  (9470535347521175506552148939771659000000, 88480123121552089323315125333754110000),
  (9555502340172904001225030944841664000000, 81431747880958410459186281068616780000),
  (9633356459404519368322613920033990000000, 74256227631750346592894754965463380000),
  (9703976146532886251500083683918440000000, 66964766724128380986544712327686910000),
  (9767251139446345679816380772117047000000, 59568751075584993497999366113359060000),
  (9823082645574323930537247954324141000000, 52079731022566912895917346551956310000),
  (9871383497989035590894170947772471000000, 44509404913262431268698964027404590000),
  (9912078296256394650492906888119818000000, 36869605656650884151955918049806940000),
  (9945103538438921689373790187786706000000, 29172299343817327946067430758377170000),
  (9970407773927713112055774946408752000000, 21429645565632656091094184161425350000),
  (9987951971684707175884270895016409000000, 13654535328774279592666950245106560000),
  (9997712642397849221620757879784684000000, 5869650649783065106011072355375493000)]

/-- n = 80. quadrature_lib.cpp:3196-3275. -/
def b80 : List (Nat × Nat) := [
  (2230886741846850599597504527163893000, 5724750015934707672720859706577367000),
  (11750678008811555502528959084384990000, 13317667947563408346467679158342350000),
  (28862295171558610539682481675441420000, 20901565623474476183696521008406370000),
  (53543487501222344867484164316843060000, 28454612257015993246345535585809900000),
  (85757136306854647908559861454417720000, 35964523840586563763377854339782270000),
  (125454297071361033071773849654318900000, 43419726346304292132047261020171300000),
  (172574554781003742738634221642725000000, 50808830205515322604159251762035160000),
  (227046168281825472532592414894852600000, 58120570603989134582333849977163340000),
  (288786193450636626238669977499991200000, 65343807962006696468934129485281440000),
  (357700614137771020234770204622734500000, 72467540202545380584810372917302640000),
  (433684487141211729176331719245262400000, 79480917918628440224514546145893260000),
  (516622102806146584028379640163020400000, 86373260281346531792921035656455000000),
  (606387161608930856481133281804378100000, 93134071041495157143677070760786240000),
  (702842966684444515114039382541717700000, 99753054390709994644459643575568060000),
  (805842632098723621916884780485664500000, 106220130578910031943553686253066100000),
  (915229306592682648144375029938521400000, 112525451231662309631107948430844000000),
  (1030836412476972750256803441307728000000, 118659414329650506465962623067842000000),
  (1152487899324793130671919656254869000000, 124612678820577455525589235016098800000),
  (1279998512082013638417297360345432000000, 130376178837825589514843718001346600000),
  (1413174073189500598729658708530924000000, 135941137502431903372093533402721100000),
  (1551811778289861996143961937805324000000, 141299080286384311983765989825072600000),
  (1695700505069400991320164385778414000000, 146441847916339238463837930097895600000),
  (1844621134765640168760358063553316000000, 151361608797789903306100050454505900000),
  (1998346885851241284226268504179966000000, 156050870940573508212214333603017500000),
  (2156643659386451076372571066875864000000, 160502493367438865740282451436254000000),
  (2319270395514340339900713734372995000000, 164709696988227006914180904509797500000),
  (2485979440556075062031636248162160000000, 168666074923057614083375815321193400000),
  (2656516924147277614819608175320956000000, 172365602258769643971821133655149400000),
  (2830623145841219534688066498184090000000, 175802645223737967477632961943484200000),
  (3008032970590153864878101787412331000000, 178971969767080273014307944080772100000),
  (3188476232502563421904783568205182000000, 181868749529179890219824955232614000000),
  (3371678146261490426904435281863206000000, 184488573191380044195754982867026300000),
  (3557359725577440734454303492826431000000, 186827451193652450133526885289193600000),
  (3745238208038639397534205919824976000000, 188881821810006987448874882131605000000),
  (3935027485711669337138057306668391000000, 190648556572388191721033957828681100000),
  (4126438540836765937203304759943569000000, 192124965034797115926062181647450700000),
  (4319179885954280567203794609996415000000, 193308798870382316635385551335783700000),
  (4512958007792077004683607749475316000000, 194198255295259844658870913343936000000),
  (4707477814237896656855033390582911000000, 194791979813847655993127623861303800000),
  (4902443083716030011728243829462727000000, 195089068281533274056402196263770200000),
  (5097556916283969988271756170537273000000, 195089068281533274056402196263770200000),
  (5292522185762103343144966609417089000000, 194791979813847655993127623861303800000),
  (5487041992207922995316392250524684000000, 194198255295259844658870913343936000000),
  (5680820114045719432796205390003585000000, 193308798870382316635385551335783700000),
  (5873561459163234062796695240056431000000, 192124965034797115926062181647450700000),
  (6064972514288330662861942693331610000000, 190648556572388191721033957828681100000),
  (6254761791961360602465794080175024000000, 188881821810006987448874882131605000000),
  (6442640274422559265545696507173569000000, 186827451193652450133526885289193600000),
  (6628321853738509573095564718136794000000, 184488573191380044195754982867026300000),
  (6811523767497436578095216431794818000000, 181868749529179890219824955232614000000),
  (6991967029409846135121898212587669000000, 178971969767080273014307944080772100000),
  (7169376854158780465311933501815910000000, 175802645223737967477632961943484200000),
  (7343483075852722385180391824679044000000, 172365602258769643971821133655149400000),
  (7514020559443924937968363751837840000000, 168666074923057614083375815321193400000),
  (7680729604485659660099286265627005000000, 164709696988227006914180904509797500000),
  (7843356340613548923627428933124136000000, 160502493367438865740282451436254000000),
  (8001653114148758715773731495820034000000, 156050870940573508212214333603017500000),
  (8155378865234359831239641936446684000000, 151361608797789903306100050454505900000),
  (8304299494930599008679835614221586000000, 146441847916339238463837930097895600000),
  (8448188221710138003856038062194676000000, 141299080286384311983765989825072600000),
  (8586825926810499401270341291469076000000, 135941137502431903372093533402721100000),
  (8720001487917986361582702639654568000000, 130376178837825589514843718001346600000),
  (8847512100675206869328080343745130000000, 124612678820577455525589235016098800000),
  (8969163587523027249743196558692272000000, 118659414329650506465962623067842000000),
  (9084770693407317351855624970061478000000, 112525451231662309631107948430844000000),
  (9194157367901276378083115219514335000000, 106220130578910031943553686253066100000),
  (9297157033315555484885960617458283000000, 99753054390709994644459643575568060000),
  (9393612838391069143518866718195622000000, 93134071041495157143677070760786240000),
  (9483377897193853415971620359836980000000, 86373260281346531792921035656455000000),
  (9566315512858788270823668280754738000000, 79480917918628440224514546145893260000),
  (9642299385862228979765229795377266000000, 72467540202545380584810372917302640000),
  (9711213806549363373761330022500009000000, 65343807962006696468934129485281440000),
  (9772953831718174527467407585105147000000, 58120570603989134582333849977163340000),
  (9827425445218996257261365778357275000000, 50808830205515322604159251762035160000),
  (9874545702928638966928226150345681000000, 43419726346304292132047261020171300000),
  (9914242863693145352091440138545583000000, 35964523840586563763377854339782270000),
  (9946456512498777655132515835683157000000, 28454612257015993246345535585809900000),
  (9971137704828441389460317518324559000000, 20901565623474476183696521008406370000),
  (9988249321991188444497471040915615000000, 13317667947563408346467679158342350000),
  (9997769113258153149400402495472837000000, 5724750015934707672720859706577367000)]

/-- n = 81. quadrature_lib.cpp:3276-3356. -/
def b81 : List (Nat × Nat) := [
  (2176481548404827616394542422323069000, 5585149235623033030603251828296799000),
  (11464200058267681710244644647792120000, 12993111499644765067483941135523610000),
  (28159033573900674886615798097615210000, 20392755567106977930103670412782720000),
  (52239893144890004360553063775378050000, 27763056851281394511363163248907410000),
  (83671457167848863900295450252999060000, 35092302424658127558049759121081890000),
  (122407136638193515418730695870432300000, 42369468926727827248079140099195430000),
  (168389418309719444649539219502820800000, 49583709047979377498749498946545810000),
  (221550001217987423755814655969279200000, 56724292477081278810040862287861620000),
  (281809911735930894097092323075910800000, 63780605575672105001280632219885210000),
  (349079625424162484887272224024920200000, 70742162566180327741257905103396260000),
  (423259201796246413554611589296237100000, 77598619562321814691226196720820500000),
  (504238433569217345736670158876968100000, 84339789338175697371672704257962760000),
  (591897010766399269158628742197337400000, 90955656206278805758813369284466810000),
  (686104699651040526631262840571045600000, 97436390778009591079635252588156520000),
  (786721536317664768966436885965098300000, 103772364507228042697613721189861500000),
  (893598034695448882706160597834440400000, 109954163963758163852506292179548200000),
  (1006575408674858589213992724965880000000, 115972604801369599407276642337274200000),
  (1125485808037882842971812394578519000000, 121818745392815486662455273005014300000),
  (1250152567846896638887426445083940000000, 127483900108328385347398895303043100000),
  (1380390470924736927783180183231601000000, 132959652216099605454598973675177000000),
  (1516006023037821951590697526350499000000, 138237866384624634555430734200562900000),
  (1656797740374549266975504063405355000000, 143310700767803381128958777241941700000),
  (1802556448892527226776189963268397000000, 148170618654527988292375963229834300000),
  (1953065595090317269705960841510364000000, 152810399665263309478299204261104500000),
  (2108101567742243152589609976200219000000, 157223150478870332090182695721453500000),
  (2267434030118443634602068332076325000000, 161402315073663444362016160726695100000),
  (2430826262196708922389901207508431000000, 165341684467440022104376031959464700000),
  (2598035512357758649286685233160154000000, 169035405941981227755979067483162800000),
  (2768813358041504716759484879612027000000, 172477991738298979473727643379678300000),
  (2942906074828512291569970784886282000000, 175664327209696897079895460818583400000),
  (3120055013398343560397415727863355000000, 178589678420522842653630129996854400000),
  (3299996983804758301120902810098826000000, 181249699179317063991628908452070000000),
  (3482464646496869177241841618213073000000, 183640437495902197584529830960570700000),
  (3667186909505323304272488140848460000000, 185758341452818560723713008199435900000),
  (3853889331203419472792463449046788000000, 187600264482379189296196223042620400000),
  (4042294528044785721300764668958323000000, 189163470041502796237875698146920600000),
  (4232122586671846815716059395222839000000, 190445635677378009155116772185193400000),
  (4423091479782816443705730697874402000000, 191444856477917622151599946711321200000),
  (4614917485139364113408546486170000000000, 192159647901875860501282840017634900000),
  (4807315607092440080817571822656713000000, 192588947984423476189190569167401200000),
  (5000000000000000000000000000000000000000, 192732118914903516947570378305386800000),
  (5192684392907559919182428177343287000000, 192588947984423476189190569167401200000),
  (5385082514860635886591453513829999000000, 192159647901875860501282840017634900000),
  (5576908520217183556294269302125598000000, 191444856477917622151599946711321200000),
  (5767877413328153184283940604777162000000, 190445635677378009155116772185193400000),
  (5957705471955214278699235331041677000000, 189163470041502796237875698146920600000),
  (6146110668796580527207536550953212000000, 187600264482379189296196223042620400000),
  (6332813090494676695727511859151540000000, 185758341452818560723713008199435900000),
  (6517535353503130822758158381786927000000, 183640437495902197584529830960570700000),
  (6700003016195241698879097189901174000000, 181249699179317063991628908452070000000),
  (6879944986601656439602584272136646000000, 178589678420522842653630129996854400000),
  (7057093925171487708430029215113719000000, 175664327209696897079895460818583400000),
  (7231186641958495283240515120387973000000, 172477991738298979473727643379678300000),
  (7401964487642241350713314766839846000000, 169035405941981227755979067483162800000),
  (7569173737803291077610098792491569000000, 165341684467440022104376031959464700000),
  (7732565969881556365397931667923675000000, 161402315073663444362016160726695100000),
  (7891898432257756847410390023799781000000, 157223150478870332090182695721453500000),
  (8046934404909682730294039158489636000000, 152810399665263309478299204261104500000),
  (8197443551107472773223810036731603000000, 148170618654527988292375963229834300000),
  (8343202259625450733024495936594646000000, 143310700767803381128958777241941700000),
  (8483993976962178048409302473649501000000, 138237866384624634555430734200562900000),
  (8619609529075263072216819816768399000000, 132959652216099605454598973675177000000),
  (8749847432153103361112573554916060000000, 127483900108328385347398895303043100000),
  (8874514191962117157028187605421481000000, 121818745392815486662455273005014300000),
  (8993424591325141410786007275034121000000, 115972604801369599407276642337274200000),
  (9106401965304551117293839402165560000000, 109954163963758163852506292179548200000),
  (9213278463682335231033563114034901000000, 103772364507228042697613721189861500000),
  (9313895300348959473368737159428954000000, 97436390778009591079635252588156520000),
  (9408102989233600730841371257802663000000, 90955656206278805758813369284466810000),
  (9495761566430782654263329841123032000000, 84339789338175697371672704257962760000),
  (9576740798203753586445388410703763000000, 77598619562321814691226196720820500000),
  (9650920374575837515112727775975080000000, 70742162566180327741257905103396260000),
  (9718190088264069105902907676924089000000, 63780605575672105001280632219885210000),
  (9778449998782012576244185344030721000000, 56724292477081278810040862287861620000),
  (9831610581690280555350460780497180000000, 49583709047979377498749498946545810000),
  (9877592863361806484581269304129568000000, 42369468926727827248079140099195430000),
  (9916328542832151136099704549747001000000, 35092302424658127558049759121081890000),
  (9947760106855109995639446936224621000000, 27763056851281394511363163248907410000),
  (9971840966426099325113384201902384000000, 20392755567106977930103670412782720000),
  (9988535799941732318289755355352208000000, 12993111499644765067483941135523610000),
  (9997823518451595172383605457577677000000, 5585149235623033030603251828296799000)]

/-- n = 82. quadrature_lib.cpp:3357-3438. -/
def b82 : List (Nat × Nat) := [
  (2124042491736755629354047323745212000, 5450592976379154330535957691200668000),
  (11188070868070687188208073692912570000, 12680273484280530549108769254905160000),
  (27481158109621855330001123819052430000, 19902289689280373095144233670670550000),
  (50983305800455250336873413693017060000, 27096381162233825453522898668523060000),
  (81660882389961983160559365713779610000, 34251372670917630921631322550235690000),
  (119469514527505856542901161466792200000, 41356759091918428022151913533280160000),
  (164354418737046520019614916591993300000, 48402203521855368684827471570542690000),
  (216250530691945484391003287202112200000, 55377478908799481601125274823291780000),
  (275082612805197554088769878811536400000, 62272467005710523398668082505030080000),
  (340765367726885560726336912127267200000, 69077168570632296938638418432794700000),
  (413203563733599464271192335540784800000, 75781716353812808942344764060382260000),
  (492292173555793709018574973728898500000, 82376388819918544455061183041028280000),
  (577916527016376458860046154572202700000, 88851623992492035734909840628967300000),
  (669952477476172757146578680319419600000, 95198033200894625365196822957059060000),
  (768266581935431491021378323698910300000, 101406414634560794507853398353399900000),
  (872716294571161719856826455623545700000, 107467766653874220217448319040603300000),
  (983150173449458503490587504582686900000, 113373300824570515512209915089010900000),
  (1099408100123208774030166301131118000000, 119114454650239131711135424873557100000),
  (1221321511802197913512229543899120000000, 124682903981203775778861141427789500000),
  (1348713645762018774741533917447925000000, 130070575080085118769342615549748800000),
  (1481399795639166607530821858791640000000, 135269656325623857598933983311564100000),
  (1619187579241764877170244502297792000000, 140272609537271152358569876663685800000),
  (1761877217488267007168442480696035000000, 145072180903822019807265150306685900000),
  (1909261824070106589794850004143828000000, 149661411500063623175429809913093700000),
  (2061127705418575664231455647658936000000, 154033647376078149068339413941570000000),
  (2217254670541180938263391218464243000000, 158182549204501227688116621610374400000),
  (2377416350278361160124602676011500000000, 162102101471703025389182039132124700000),
  (2541380525517753387682704634255242000000, 165786621199536056638791922016623700000),
  (2708909463890184010885683887573376000000, 169230766184984293723182810661333800000),
  (2879760264459246389182203613302733000000, 172429542745753527536894034827959600000),
  (3053685209904725920394764187222082000000, 175378312960563451923901528873566600000),
  (3230432125689260317973026612376035000000, 178072801393637363402479576297244900000),
  (3409744745687492474949578306744294000000, 180509101293635115378477612606688000000),
  (3591363083747599488158679709835206000000, 182683680258038264210988664126343700000),
  (3775023810646477310804117359858893000000, 184593385354772284992658364160664500000),
  (3960460635892038245168854110611798000000, 186235447693638320939200180351183400000),
  (4147404693819049201164503165397833000000, 187607486440925104357870359903503900000),
  (4335584933418712371175932189317854000000, 188707512271379348357685193155137900000),
  (4524728511336775630235566295398072000000, 189533930252528923897321130109819800000),
  (4714561187470365340485201603896676000000, 190085542157176349526513871180452300000),
  (4904807722589965931192726606934023000000, 190361548200709356038480089128357100000),
  (5095192277410034068807273393065977000000, 190361548200709356038480089128357100000),
  (5285438812529634659514798396103324000000, 190085542157176349526513871180452300000),
  (5475271488663224369764433704601928000000, 189533930252528923897321130109819800000),
  (5664415066581287628824067810682146000000, 188707512271379348357685193155137900000),
  (5852595306180950798835496834602167000000, 187607486440925104357870359903503900000),
  (6039539364107961754831145889388201000000, 186235447693638320939200180351183400000),
  (6224976189353522689195882640141107000000, 184593385354772284992658364160664500000),
  (6408636916252400511841320290164794000000, 182683680258038264210988664126343700000),
  (6590255254312507525050421693255706000000, 180509101293635115378477612606688000000),
  (6769567874310739682026973387623965000000, 178072801393637363402479576297244900000),
  (6946314790095274079605235812777918000000, 175378312960563451923901528873566600000),
  (7120239735540753610817796386697267000000, 172429542745753527536894034827959600000),
  (7291090536109815989114316112426624000000, 169230766184984293723182810661333800000),
  (7458619474482246612317295365744758000000, 165786621199536056638791922016623700000),
  (7622583649721638839875397323988500000000, 162102101471703025389182039132124700000),
  (7782745329458819061736608781535758000000, 158182549204501227688116621610374400000),
  (7938872294581424335768544352341064000000, 154033647376078149068339413941570000000),
  (8090738175929893410205149995856172000000, 149661411500063623175429809913093700000),
  (8238122782511732992831557519303965000000, 145072180903822019807265150306685900000),
  (8380812420758235122829755497702208000000, 140272609537271152358569876663685800000),
  (8518600204360833392469178141208359000000, 135269656325623857598933983311564100000),
  (8651286354237981225258466082552074000000, 130070575080085118769342615549748800000),
  (8778678488197802086487770456100881000000, 124682903981203775778861141427789500000),
  (8900591899876791225969833698868882000000, 119114454650239131711135424873557100000),
  (9016849826550541496509412495417313000000, 113373300824570515512209915089010900000),
  (9127283705428838280143173544376454000000, 107467766653874220217448319040603300000),
  (9231733418064568508978621676301090000000, 101406414634560794507853398353399900000),
  (9330047522523827242853421319680581000000, 95198033200894625365196822957059060000),
  (9422083472983623541139953845427798000000, 88851623992492035734909840628967300000),
  (9507707826444206290981425026271101000000, 82376388819918544455061183041028280000),
  (9586796436266400535728807664459215000000, 75781716353812808942344764060382260000),
  (9659234632273114439273663087872732000000, 69077168570632296938638418432794700000),
  (9724917387194802445911230121188464000000, 62272467005710523398668082505030080000),
  (9783749469308054515608996712797888000000, 55377478908799481601125274823291780000),
  (9835645581262953479980385083408007000000, 48402203521855368684827471570542690000),
  (9880530485472494143457098838533208000000, 41356759091918428022151913533280160000),
  (9918339117610038016839440634286220000000, 34251372670917630921631322550235690000),
  (9949016694199544749663126586306983000000, 27096381162233825453522898668523060000),
  (9972518841890378144669998876180948000000, 19902289689280373095144233670670550000),
  (9988811929131929312811791926307087000000, 12680273484280530549108769254905160000),
  (9997875957508263244370645952676255000000, 5450592976379154330535957691200668000)]

/-- n = 83. quadrature_lib.cpp:3439-3521. -/
def b83 : List (Nat × Nat) := [
  (2073475964753280936977600941475954000, 5320841098332838781903762413011191000),
  (10921797982850191218668631811272210000, 12378596612729698716643825548198780000),
  (26827461841098382960167605869722130000, 19429297176766010960012512350206980000),
  (49771493513673886138359713872437870000, 26453407229299327776192497251850100000),
  (79721852016592642314665741503846480000, 33440258176218428706783764628602270000),
  (116636249635785328839060648944046200000, 40379832965617261417965256718175230000),
  (160462472749356352264925740530999400000, 47262275462398499441215082605843560000),
  (211138504386164470192441299234560000000, 54077832790185793601806306951398050000),
  (268592624941045627788523718140098400000, 60816853638993060315166318634366340000),
  (332743517990806903821601132135801000000, 67469797561876174903497748123491410000),
  (403500387063960281095018904121871900000, 74027247003589388404247146296199680000),
  (480763084885502459591396598202884700000, 80479920059676854577190356473328530000),
  (564422255474683296297402941012058800000, 86818683369123111750828057497357560000),
  (654359489106415082504419754800328500000, 93034564927392364208338742991129410000),
  (750447490005331013307853183610758600000, 99118766728274695246560247292401410000),
  (852550256575078617991222919142646900000, 105062677186349589370046724999327300000),
  (960523273927051838510675568979764100000, 110857883309018113109952205758676800000),
  (1074213718445920798561819181990152000000, 116496182594502746850804818037369400000),
  (1193460674107706296403723580867079000000, 121969594635792787487171038432958500000),
  (1318095360247178662963088412878580000000, 127270372412447483754090845235268700000),
  (1447941370453912677597711754270006000000, 132391013253368812425543060695036400000),
  (1582814922259891098720796052173377000000, 137324269454516306194640173135821600000),
  (1722525117265881412584568317157413000000, 142063158536238207818753698661041400000),
  (1866874211338803207525385338966192000000, 146600973125522639590206963881592500000),
  (2015657894497908438040847116053696000000, 150931290449072085270508709679788400000),
  (2168665580093795984961580742005285000000, 155047981423695974215335228085929600000),
  (2325680702871073447098785762365512000000, 158945219331110753217743777801955300000),
  (2486481025492869339894444032395811000000, 162617488064840329956455776239876200000),
  (2650838953093398356412748964625231000000, 166059589937525075905866258130590700000),
  (2818521855413403622572512638449060000000, 169266653037575993496549711559640500000),
  (2989292396062556322179855820979436000000, 172234138124752584162609568837672600000),
  (3162908868442798162992035978029196000000, 174957845054898273657623076466756900000),
  (3339125537857179088424190021320586000000, 177433918724735513229216216210225800000),
  (3517692989319984044446433696560290000000, 179658854528303236736653728470440800000),
  (3698358480575870410437521087573088000000, 181629503317311444499479046241227100000),
  (3880866299828363004034040636959059000000, 183343075858390450219503221036229800000),
  (4064958127671386596052233156032934000000, 184797146780924855398789932010278600000),
  (4250373402711565911019454691109287000000, 185989658009883652720006353700961600000),
  (4436849690363798460960107674281198000000, 186918921678787022054587977981713800000),
  (4624123054298113588365930717556282000000, 187583622518686363575288216687461300000),
  (4811928430012078086662106476653340000000, 187982819719775887959846721545959500000),
  (5000000000000000000000000000000000000000, 188115948263000616628750649401280500000),
  (5188071569987921913337893523346660000000, 187982819719775887959846721545959500000),
  (5375876945701886411634069282443718000000, 187583622518686363575288216687461300000),
  (5563150309636201539039892325718802000000, 186918921678787022054587977981713800000),
  (5749626597288434088980545308890713000000, 185989658009883652720006353700961600000),
  (5935041872328613403947766843967066000000, 184797146780924855398789932010278600000),
  (6119133700171636995965959363040941000000, 183343075858390450219503221036229800000),
  (6301641519424129589562478912426912000000, 181629503317311444499479046241227100000),
  (6482307010680015955553566303439710000000, 179658854528303236736653728470440800000),
  (6660874462142820911575809978679413000000, 177433918724735513229216216210225800000),
  (6837091131557201837007964021970804000000, 174957845054898273657623076466756900000),
  (7010707603937443677820144179020565000000, 172234138124752584162609568837672600000),
  (7181478144586596377427487361550940000000, 169266653037575993496549711559640500000),
  (7349161046906601643587251035374769000000, 166059589937525075905866258130590700000),
  (7513518974507130660105555967604189000000, 162617488064840329956455776239876200000),
  (7674319297128926552901214237634487000000, 158945219331110753217743777801955300000),
  (7831334419906204015038419257994715000000, 155047981423695974215335228085929600000),
  (7984342105502091561959152883946304000000, 150931290449072085270508709679788400000),
  (8133125788661196792474614661033808000000, 146600973125522639590206963881592500000),
  (8277474882734118587415431682842587000000, 142063158536238207818753698661041400000),
  (8417185077740108901279203947826623000000, 137324269454516306194640173135821600000),
  (8552058629546087322402288245729994000000, 132391013253368812425543060695036400000),
  (8681904639752821337036911587121420000000, 127270372412447483754090845235268700000),
  (8806539325892293703596276419132921000000, 121969594635792787487171038432958500000),
  (8925786281554079201438180818009848000000, 116496182594502746850804818037369400000),
  (9039476726072948161489324431020236000000, 110857883309018113109952205758676800000),
  (9147449743424921382008777080857353000000, 105062677186349589370046724999327300000),
  (9249552509994668986692146816389241000000, 99118766728274695246560247292401410000),
  (9345640510893584917495580245199671000000, 93034564927392364208338742991129410000),
  (9435577744525316703702597058987941000000, 86818683369123111750828057497357560000),
  (9519236915114497540408603401797115000000, 80479920059676854577190356473328530000),
  (9596499612936039718904981095878128000000, 74027247003589388404247146296199680000),
  (9667256482009193096178398867864199000000, 67469797561876174903497748123491410000),
  (9731407375058954372211476281859902000000, 60816853638993060315166318634366340000),
  (9788861495613835529807558700765440000000, 54077832790185793601806306951398050000),
  (9839537527250643647735074259469000000000, 47262275462398499441215082605843560000),
  (9883363750364214671160939351055954000000, 40379832965617261417965256718175230000),
  (9920278147983407357685334258496153000000, 33440258176218428706783764628602270000),
  (9950228506486326113861640286127562000000, 26453407229299327776192497251850100000),
  (9973172538158901617039832394130277000000, 19429297176766010960012512350206980000),
  (9989078202017149808781331368188728000000, 12378596612729698716643825548198780000),
  (9997926524035246719063022399058525000000, 5320841098332838781903762413011191000)]

/-- n = 84. quadrature_lib.cpp:3522-3605. -/
def b84 : List (Nat × Nat) := [
  (2024693865383788976263708743827814000, 5195667582259859445940567695406154000),
  (10664917891440192192905171083184560000, 12087556327215614276175958766452530000),
  (26196808693576794020812968938008460000, 18972958252261748481966972037617170000),
  (48602355173216563328920512141743170000, 25833025913734041649405105580130710000),
  (77851014362091742404625031866727050000, 32657568438568273005606746965954220000),
  (113902463208421086728496678664495200000, 39437028763240731910530639123868390000),
  (156706909131890511546860464155406900000, 46162003920951235071914728071076330000),
  (206205206351532639900254071610448400000, 52823188115041226324242392849790750000),
  (262328950262784385943621294157940500000, 59411370449006117475259808215483980000),
  (325000576182205911237997154541693300000, 65917443395911729933997337170009430000),
  (394133468184743911363966350964296200000, 72332413945805931211374360614756340000),
  (469632079529957893300122456770926100000, 78647415477917991007999117915530920000),
  (551392065058422695980302685867111300000, 84853719776058056715408411449382860000),
  (639300425582104839850947085858091300000, 90942748980282749638001203922879510000),
  (733235664155406692006295817797078500000, 96906087386594043239035291560218640000),
  (833067954049892855769737766965995800000, 102735493048781393057622198183446400000),
  (938659318219384804885310647286323200000, 108422909153224114946220185857507400000),
  (1049863820017015660161311715719491000000, 113960475144710646694443167006436900000),
  (1166527764905818586665499073097917000000, 119340537584791196923577109502193400000),
  (1288489912886950396132391301911987000000, 124555660726032144421956798916050500000),
  (1415581701353625880885588735647206000000, 129598636786673238625801077602028700000),
  (1547627478063757643898463974896427000000, 134462495910988187579082117267321300000),
  (1684444743909926828319004286965387000000, 139140515801292030178834601643187200000),
  (1825844405151542581779928755797887000000, 143626231008109011063323896897936200000),
  (1971631034760833051578656390961601000000, 147913441865554226448026306741293800000),
  (2121603142521629219790420531124143000000, 151996223059512348865568511545084900000),
  (2275553453507751555436766050462094000000, 155868931816728306459837347746109600000),
  (2433269194556192999759480785449834000000, 159526215703463637420114828884414300000),
  (2594532388339219119728455318841236000000, 162963020022921285918066676580459600000),
  (2759120154628988344207501352354388000000, 166174594801202220373578133294045500000),
  (2926805018338343903300051583501600000000, 169156501352129924018624456906130700000),
  (3097355223912056497305993679579738000000, 171904618411863503106674666520560400000),
  (3270535055634014704834350141410906000000, 174415147834816542282083310379884100000),
  (3446105163407680136860146321360000000000, 176684619843006380801943624852104900000),
  (3623822893559557197503231423482512000000, 178709897821576536389444865139519700000),
  (3803442624208483171453536904747328000000, 180488182653862833508763113399102500000),
  (3984716104737232609355952902355256000000, 182017016590010612443131300643918000000),
  (4167392798897259205167774481097720000000, 183294286643795378182884586713963200000),
  (4351220231072376290997312143494889000000, 184318227512951538592260358189108100000),
  (4535944335222810586268748296774502000000, 185087424018972602926222118490651400000),
  (4721309806027358915003635788388103000000, 185600813063010471368637936434219900000),
  (4907060451738339333565849486072828000000, 185857685095170338016418062724762100000),
  (5092939548261660666434150513927172000000, 185857685095170338016418062724762100000),
  (5278690193972641084996364211611897000000, 185600813063010471368637936434219900000),
  (5464055664777189413731251703225498000000, 185087424018972602926222118490651400000),
  (5648779768927623709002687856505111000000, 184318227512951538592260358189108100000),
  (5832607201102740794832225518902280000000, 183294286643795378182884586713963200000),
  (6015283895262767390644047097644745000000, 182017016590010612443131300643918000000),
  (6196557375791516828546463095252672000000, 180488182653862833508763113399102500000),
  (6376177106440442802496768576517488000000, 178709897821576536389444865139519700000),
  (6553894836592319863139853678640000000000, 176684619843006380801943624852104900000),
  (6729464944365985295165649858589094000000, 174415147834816542282083310379884100000),
  (6902644776087943502694006320420262000000, 171904618411863503106674666520560400000),
  (7073194981661656096699948416498400000000, 169156501352129924018624456906130700000),
  (7240879845371011655792498647645612000000, 166174594801202220373578133294045500000),
  (7405467611660780880271544681158764000000, 162963020022921285918066676580459600000),
  (7566730805443807000240519214550166000000, 159526215703463637420114828884414300000),
  (7724446546492248444563233949537906000000, 155868931816728306459837347746109600000),
  (7878396857478370780209579468875858000000, 151996223059512348865568511545084900000),
  (8028368965239166948421343609038399000000, 147913441865554226448026306741293800000),
  (8174155594848457418220071244202112000000, 143626231008109011063323896897936200000),
  (8315555256090073171680995713034612000000, 139140515801292030178834601643187200000),
  (8452372521936242356101536025103573000000, 134462495910988187579082117267321300000),
  (8584418298646374119114411264352793000000, 129598636786673238625801077602028700000),
  (8711510087113049603867608698088012000000, 124555660726032144421956798916050500000),
  (8833472235094181413334500926902083000000, 119340537584791196923577109502193400000),
  (8950136179982984339838688284280509000000, 113960475144710646694443167006436900000),
  (9061340681780615195114689352713676000000, 108422909153224114946220185857507400000),
  (9166932045950107144230262233034004000000, 102735493048781393057622198183446400000),
  (9266764335844593307993704182202921000000, 96906087386594043239035291560218640000),
  (9360699574417895160149052914141908000000, 90942748980282749638001203922879510000),
  (9448607934941577304019697314132889000000, 84853719776058056715408411449382860000),
  (9530367920470042106699877543229074000000, 78647415477917991007999117915530920000),
  (9605866531815256088636033649035704000000, 72332413945805931211374360614756340000),
  (9674999423817794088762002845458306000000, 65917443395911729933997337170009430000),
  (9737671049737215614056378705842059000000, 59411370449006117475259808215483980000),
  (9793794793648467360099745928389552000000, 52823188115041226324242392849790750000),
  (9843293090868109488453139535844593000000, 46162003920951235071914728071076330000),
  (9886097536791578913271503321335505000000, 39437028763240731910530639123868390000),
  (9922148985637908257595374968133273000000, 32657568438568273005606746965954220000),
  (9951397644826783436671079487858257000000, 25833025913734041649405105580130710000),
  (9973803191306423205979187031061992000000, 18972958252261748481966972037617170000),
  (9989335082108559807807094828916815000000, 12087556327215614276175958766452530000),
  (9997975306134616211023736291256173000000, 5195667582259859445940567695406154000)]

/-- n = 85. quadrature_lib.cpp:3606-3690. -/
def b85 : List (Nat × Nat) := [
  (1977613212607728368482025049214431000, 5074859544838718476865112733909545000),
  (10416994009415334248455820154685410000, 11806658521425104483836893989313420000),
  (25588128521918607733164279580062950000, 18532500628796583534354993717369540000),
  (47473911417920181064378350393373030000, 25234192134622213627258859263879860000),
  (76045211572097513364179525627955590000, 31901992939487575493429626167271190000),
  (111263557938783040333330635304484200000, 38526779801913785399485852018068720000),
  (153081440381608359974318981928735400000, 45099577199968156394835968266785180000),
  (201442420214058188018265735717885500000, 51611501152621229469081048614267710000),
  (256281218727105232976757116190255000000, 58053756433519490048121559511862940000),
  (317523809417846501566511991747690500000, 64417644282490421452531411557363730000),
  (385087519519549772056152720571309800000, 70694572742004164652777102396680940000),
  (458881142304540575515874594787036800000, 76876067711948134372041952659112100000),
  (538805060543220492091431286766406500000, 82953784155773350376025248102086830000),
  (624751381154514561806735253198881500000, 88919517256990854538718467395706410000),
  (716604080950219054520943387277704000000, 94765213440914202234025979967440840000),
  (814239163314586749007290756453332900000, 100482981217877108708972706927990200000),
  (917524825626041926397133760004019000000, 106065101820446898362083547049870400000),
  (1026321637204417472764253392428947000000, 111504039614196870947287700768508000000),
  (1140482727548534606698444694443052000000, 116792452264949459488492165760607600000),
  (1259853984612829630218650485940934000000, 121923200647178415712079106609264000000),
  (1384274262856994893077083033927211000000, 126889358479330442386848376089691400000),
  (1513575600788752261745180050519516000000, 131684221672571799108657689061247200000),
  (1647583447706686696486639627273460000000, 136301317380055823928849756190174600000),
  (1786116899337426425783002841955017000000, 140734412734325379231915467004889600000),
  (1928988942049315034643515325697755000000, 144977523260950760449331362450089200000),
  (2076006705313059571448539717886512000000, 149024920956979436878061837277423500000),
  (2226971722068652834205046243948310000000, 152871142023249978619620559080695400000),
  (2381680196647160626059773319145350000000, 156510994240104352241984851521759500000),
  (2539923279885743447614289372764505000000, 159939563976523372298850002877481200000),
  (2701487351064556396192652893587411000000, 163152222823210890945188561281295000000),
  (2866154306284951491390027933339350000000, 166144633840663848812642874819345300000),
  (3033701852899704046748926235199516000000, 168912757413787651656558662769396300000),
  (3203903809597809756216775968835425000000, 171452856705149233541111287949966500000),
  (3376530411738762212729917223315236000000, 173761502699503187646236769071843300000),
  (3551348621524131482306451862968196000000, 175835578832778941249064254834744800000),
  (3728122442587732387511346698130060000000, 177672285199278495409957567503940100000),
  (3906613238579704921448783544058799000000, 179269142331404062784575991332165800000),
  (4086580055314436630618594552314567000000, 180623994546812301873759403325085600000),
  (4267779946047445053945492391513925000000, 181735012858476018833783872217915700000),
  (4449968299442113813236599915428980000000, 182600697443724424287383063926587600000),
  (4632899169783544371902461363824223000000, 183219879668928512432034633016193200000),
  (4816325608993751682397656156793943000000, 183591723667098081110761272839364500000),
  (5000000000000000000000000000000000000000, 183715727466260533001033160162690000000),
  (5183674391006248317602343843206057000000, 183591723667098081110761272839364500000),
  (5367100830216455628097538636175777000000, 183219879668928512432034633016193200000),
  (5550031700557886186763400084571020000000, 182600697443724424287383063926587600000),
  (5732220053952554946054507608486075000000, 181735012858476018833783872217915700000),
  (5913419944685563369381405447685433000000, 180623994546812301873759403325085600000),
  (6093386761420295078551216455941201000000, 179269142331404062784575991332165800000),
  (6271877557412267612488653301869940000000, 177672285199278495409957567503940100000),
  (6448651378475868517693548137031804000000, 175835578832778941249064254834744800000),
  (6623469588261237787270082776684764000000, 173761502699503187646236769071843300000),
  (6796096190402190243783224031164575000000, 171452856705149233541111287949966500000),
  (6966298147100295953251073764800484000000, 168912757413787651656558662769396300000),
  (7133845693715048508609972066660650000000, 166144633840663848812642874819345300000),
  (7298512648935443603807347106412589000000, 163152222823210890945188561281295000000),
  (7460076720114256552385710627235495000000, 159939563976523372298850002877481200000),
  (7618319803352839373940226680854650000000, 156510994240104352241984851521759500000),
  (7773028277931347165794953756051690000000, 152871142023249978619620559080695400000),
  (7923993294686940428551460282113487000000, 149024920956979436878061837277423500000),
  (8071011057950684965356484674302244000000, 144977523260950760449331362450089200000),
  (8213883100662573574216997158044983000000, 140734412734325379231915467004889600000),
  (8352416552293313303513360372726540000000, 136301317380055823928849756190174600000),
  (8486424399211247738254819949480484000000, 131684221672571799108657689061247200000),
  (8615725737143005106922916966072790000000, 126889358479330442386848376089691400000),
  (8740146015387170369781349514059066000000, 121923200647178415712079106609264000000),
  (8859517272451465393301555305556948000000, 116792452264949459488492165760607600000),
  (8973678362795582527235746607571053000000, 111504039614196870947287700768508000000),
  (9082475174373958073602866239995981000000, 106065101820446898362083547049870400000),
  (9185760836685413250992709243546667000000, 100482981217877108708972706927990200000),
  (9283395919049780945479056612722296000000, 94765213440914202234025979967440840000),
  (9375248618845485438193264746801118000000, 88919517256990854538718467395706410000),
  (9461194939456779507908568713233594000000, 82953784155773350376025248102086830000),
  (9541118857695459424484125405212963000000, 76876067711948134372041952659112100000),
  (9614912480480450227943847279428690000000, 70694572742004164652777102396680940000),
  (9682476190582153498433488008252310000000, 64417644282490421452531411557363730000),
  (9743718781272894767023242883809745000000, 58053756433519490048121559511862940000),
  (9798557579785941811981734264282115000000, 51611501152621229469081048614267710000),
  (9846918559618391640025681018071265000000, 45099577199968156394835968266785180000),
  (9888736442061216959666669364695516000000, 38526779801913785399485852018068720000),
  (9923954788427902486635820474372044000000, 31901992939487575493429626167271190000),
  (9952526088582079818935621649606627000000, 25234192134622213627258859263879860000),
  (9974411871478081392266835720419937000000, 18532500628796583534354993717369540000),
  (9989583005990584665751544179845314000000, 11806658521425104483836893989313420000),
  (9998022386787392271631517974950786000000, 5074859544838718476865112733909545000)]

/-- n = 86. quadrature_lib.cpp:3691-3776. -/
def b86 : List (Nat × Nat) := [
  (1932155793370714913240285154050983000, 4958216333101817627887911914660959000),
  (10177614823780276074008764811531560000, 11535437444049514629839113370511720000),
  (25000412573310518879860851567366340000, 18107196248054507187778601967964560000),
  (46384296272406473900269202121337690000, 24655920484800518482107819804450650000),
  (74301466337487931944325339351538700000, 31172295695700617319434729599409350000),
  (108715198731576416887591449551602900000, 37647608060972813034224475239435100000),
  (149580136571299343207166071623380900000, 44073285509774078518910036212008040000),
  (196842395285507756852926955541849400000, 50440842301930528273365141086215460000),
  (250439645738948721439957688903156100000, 56741875780888519885832948756566620000),
  (310301200450536927834784085267299100000, 62968073390348489052046272712485510000),
  (376348108385690251114770680725756600000, 69111222263833354333240958497886580000),
  (448493259769170848947234514922096700000, 75163219525406893424725931306031030000),
  (526641501302768328104805178362156000000, 81116082748645112940418038026921620000),
  (610689761833170313300421706049100600000, 86961960378452711933598231192324960000),
  (700527188386575223498956551623449700000, 92693142033549296031573614130038440000),
  (796035292427834741501446556366555000000, 98302068647810899037009980039763390000),
  (897088106169198892314748414754967400000, 103781342424545713952908473729716800000),
  (1003552348731691059318736492832044000000, 109123736584638139003421094079451500000),
  (1115287601944883144727651436292562000000, 114322204892740032228864229664173700000),
  (1232146495555955482510296191469187000000, 119369890947395024866087058789222800000),
  (1353974901605358385506410174169068000000, 124260137221999179591629142492378400000),
  (1480612137713661526017863465053309000000, 128986493844197677038855516585347400000),
  (1611891179012057446720239312385137000000, 133542727101861047876533715260485500000),
  (1747638878437368835745026420510806000000, 137922827664256241936921013956799800000),
  (1887676195101245940433731500762979000000, 142121018507467473786562156149105900000),
  (2031818430432509831639562542192853000000, 146131762533549722918307484226128000000),
  (2179875471781293354924474891603303000000, 149949769873324662456692448898276400000),
  (2331652043163756583480754348807495000000, 153570004863160265915200245366802700000),
  (2486947962816713627490436614252250000000, 156987692686514327792666120723785600000),
  (2645558407222511082110273717614458000000, 160198325671470080551141744847282300000),
  (2807274181255954529941084506589020000000, 163197669235949609780493391335266100000),
  (2971881994096998019244129000390639000000, 165981767472757985600451706687320800000),
  (3139164740545301948379323060759261000000, 168546948367087774324857680555083700000),
  (3308901787365636667940178931600098000000, 170889828639599523171190597413117900000),
  (3480869264286471324686141484122615000000, 173007318208688461299672045686211500000),
  (3654840359267948474497952499439808000000, 174896624266050496857065875435268800000),
  (3830585617649812681299419295822982000000, 176555254960171025402923559727491400000),
  (4007873244784742985927342627913844000000, 177981022682877477953455741919891900000),
  (4186469411757941428312337964413655000000, 179172046954620278948897110446016300000),
  (4366138563789758735069006071626930000000, 180126756904676288550447806001375900000),
  (4546643730914599164843116171959423000000, 180843893343003187913724769155395300000),
  (4727746840526343969850325413641841000000, 181322510421011937157459762599841000000),
  (4909209031378070920332785526421198000000, 181561976879066691411575704412088500000),
  (5090790968621929079667214473578802000000, 181561976879066691411575704412088500000),
  (5272253159473656030149674586358159000000, 181322510421011937157459762599841000000),
  (5453356269085400835156883828040577000000, 180843893343003187913724769155395300000),
  (5633861436210241264930993928373070000000, 180126756904676288550447806001375900000),
  (5813530588242058571687662035586345000000, 179172046954620278948897110446016300000),
  (5992126755215257014072657372086156000000, 177981022682877477953455741919891900000),
  (6169414382350187318700580704177018000000, 176555254960171025402923559727491400000),
  (6345159640732051525502047500560193000000, 174896624266050496857065875435268800000),
  (6519130735713528675313858515877385000000, 173007318208688461299672045686211500000),
  (6691098212634363332059821068399902000000, 170889828639599523171190597413117900000),
  (6860835259454698051620676939240740000000, 168546948367087774324857680555083700000),
  (7028118005903001980755870999609361000000, 165981767472757985600451706687320800000),
  (7192725818744045470058915493410980000000, 163197669235949609780493391335266100000),
  (7354441592777488917889726282385542000000, 160198325671470080551141744847282300000),
  (7513052037183286372509563385747750000000, 156987692686514327792666120723785600000),
  (7668347956836243416519245651192505000000, 153570004863160265915200245366802700000),
  (7820124528218706645075525108396697000000, 149949769873324662456692448898276400000),
  (7968181569567490168360437457807147000000, 146131762533549722918307484226128000000),
  (8112323804898754059566268499237021000000, 142121018507467473786562156149105900000),
  (8252361121562631164254973579489194000000, 137922827664256241936921013956799800000),
  (8388108820987942553279760687614863000000, 133542727101861047876533715260485500000),
  (8519387862286338473982136534946691000000, 128986493844197677038855516585347400000),
  (8646025098394641614493589825830932000000, 124260137221999179591629142492378400000),
  (8767853504444044517489703808530814000000, 119369890947395024866087058789222800000),
  (8884712398055116855272348563707438000000, 114322204892740032228864229664173700000),
  (8996447651268308940681263507167955000000, 109123736584638139003421094079451500000),
  (9102911893830801107685251585245033000000, 103781342424545713952908473729716800000),
  (9203964707572165258498553443633444000000, 98302068647810899037009980039763390000),
  (9299472811613424776501043448376551000000, 92693142033549296031573614130038440000),
  (9389310238166829686699578293950899000000, 86961960378452711933598231192324960000),
  (9473358498697231671895194821637844000000, 81116082748645112940418038026921620000),
  (9551506740230829151052765485077904000000, 75163219525406893424725931306031030000),
  (9623651891614309748885229319274243000000, 69111222263833354333240958497886580000),
  (9689698799549463072165215914732701000000, 62968073390348489052046272712485510000),
  (9749560354261051278560042311096843000000, 56741875780888519885832948756566620000),
  (9803157604714492243147073044458151000000, 50440842301930528273365141086215460000),
  (9850419863428700656792833928376619000000, 44073285509774078518910036212008040000),
  (9891284801268423583112408550448397000000, 37647608060972813034224475239435100000),
  (9925698533662512068055674660648461000000, 31172295695700617319434729599409350000),
  (9953615703727593526099730797878663000000, 24655920484800518482107819804450650000),
  (9974999587426689481120139148432634000000, 18107196248054507187778601967964560000),
  (9989822385176219723925991235188468000000, 11535437444049514629839113370511720000),
  (9998067844206629285086759714845949000000, 4958216333101817627887911914660959000)]

/-- Blocks 71..86. -/
def blocks2 : List (List (Nat × Nat)) := [b71, b72, b73, b74, b75, b76, b77, b78, b79, b80, b81, b82, b83, b84, b85, b86]

end Qugar.GaussTable
