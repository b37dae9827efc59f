/-
GENERATED (see DESIGN.md) from cpp/qugar/quadrature_lib.cpp: rows of `Gauss::get_quad_data` for n = 87..100 points.
Every decimal literal of the source is written as an integer multiple of 10^(-40) (exactly, no rounding); the
rounding of the literals to `double` is not modelled.
-/
namespace Qugar.GaussTable

/-- n = 87. quadrature_lib.cpp:3777-3863. -/
def b87 : List (Nat × Nat) := [
  (1888247837578638054519071252512308000, 4845548690885376688032674220365965000),
  (9946392185088209591605542840768083000, 11273453768764265462406053976223110000),
  (24432709310039970272458347918845090000, 17696358276943142700907929889718440000),
  (45331749445177147385660882305580130000, 24097281192509429496543492889932730000),
  (72616969657898160180960458867467700000, 30467310238174360650511277321166380000),
  (106253294980918637867609812152882700000, 36798118244090318303852913609766580000),
  (146197401263578628232263454667388400000, 43081514192444759164750517970252170000),
  (192397815319634153678851583875625300000, 49309388568509133582920652395759290000),
  (244794993053432130404404947383607500000, 55473709702803596398604222766248560000),
  (303321400128971260610059535569953800000, 61566530150240182711435016888432880000),
  (367901600543813900242679086086393100000, 67579995591228290409403430366492650000),
  (438452354529385578085083210208790500000, 73506354436199211149469609794034980000),
  (514882726162153164913368697206468000000, 79337967594131595014608710219798820000),
  (597094200739790794711433919596709200000, 85067318215007672168226728922810320000),
  (684980811851466987149047554097024700000, 90687021326771260251090218779356310000),
  (778429278014823898797214899900535000000, 96189833326782793925253339484838820000),
  (877319148721097599332826372526829300000, 101568661303277847632848979680110800000),
  (981522959709111108823394430518434400000, 106816572169012657968080761250868300000),
  (1090906397272811318226610057141147000000, 111926801592427391070987495721898700000),
  (1205328471393253421322859793655430000000, 116892762713300861289119755073948100000),
  (1324641697473431029489819755074956000000, 121708054630838161696069026062007000000),
  (1448692286442635485790158107183966000000, 126366470652785365820593051782333400000),
  (1577320342985881629400692413356218000000, 130862006294667794748627595392128200000),
  (1710360071643253044785229824016144000000, 135188867018679036419886473115454000000),
  (1847639990513747763531526114620932000000, 139341475702146029948171798845730600000),
  (1988983152288323991560225165544315000000, 143314479825881091942936416683241400000),
  (2134207372327347940628936075039448000000, 147102758373115241246123851023728800000),
  (2283125463488533232786919253252480000000, 150701428430094123719755798024689200000),
  (2435545477402738704295452409231317000000, 154105851479811170768595214387727300000),
  (2591270951886665974552691092484775000000, 157311639380753819689811116522678400000),
  (2750101164173578107992134482947094000000, 160314660022948338888290909714964700000),
  (2911831389635654724850446219276739000000, 163111042654007219629001703390208800000),
  (3076253165664515681680944148888232000000, 165697182868310117681444183494621900000),
  (3243154560369793421421530606661771000000, 168069747252884677921111286718946500000),
  (3412320445749421428343281765753603000000, 170225677683996867275918182352190900000),
  (3583532774979540634027739023173856000000, 172162195268911218829690963791245500000),
  (3756570863466614342002310383198424000000, 173876803927739146243556120430766800000),
  (3931211673299491982031187111525371000000, 175367293610757682783126735956299700000),
  (4107230100734778928508852565079038000000, 176631743147051068492152654843528400000),
  (4284399266344959304938003164896277000000, 177668522720802969556673785246415500000),
  (4462490807455286141971187620500184000000, 178476295972047168882397150499748100000),
  (4641275172492502851435845728217129000000, 179054021719168708783127996025124700000),
  (4820521916865995502636414086735880000000, 179400955300935079388676036118848000000),
  (5000000000000000000000000000000000000000, 179516649536327507210416336710695600000),
  (5179478083134004497363585913264119000000, 179400955300935079388676036118848000000),
  (5358724827507497148564154271782870000000, 179054021719168708783127996025124700000),
  (5537509192544713858028812379499817000000, 178476295972047168882397150499748100000),
  (5715600733655040695061996835103723000000, 177668522720802969556673785246415500000),
  (5892769899265221071491147434920962000000, 176631743147051068492152654843528400000),
  (6068788326700508017968812888474629000000, 175367293610757682783126735956299700000),
  (6243429136533385657997689616801576000000, 173876803927739146243556120430766800000),
  (6416467225020459365972260976826144000000, 172162195268911218829690963791245500000),
  (6587679554250578571656718234246398000000, 170225677683996867275918182352190900000),
  (6756845439630206578578469393338229000000, 168069747252884677921111286718946500000),
  (6923746834335484318319055851111768000000, 165697182868310117681444183494621900000),
  (7088168610364345275149553780723261000000, 163111042654007219629001703390208800000),
  (7249898835826421892007865517052906000000, 160314660022948338888290909714964700000),
  (7408729048113334025447308907515225000000, 157311639380753819689811116522678400000),
  (7564454522597261295704547590768682000000, 154105851479811170768595214387727300000),
  (7716874536511466767213080746747520000000, 150701428430094123719755798024689200000),
  (7865792627672652059371063924960552000000, 147102758373115241246123851023728800000),
  (8011016847711676008439774834455685000000, 143314479825881091942936416683241400000),
  (8152360009486252236468473885379068000000, 139341475702146029948171798845730600000),
  (8289639928356746955214770175983856000000, 135188867018679036419886473115454000000),
  (8422679657014118370599307586643782000000, 130862006294667794748627595392128200000),
  (8551307713557364514209841892816034000000, 126366470652785365820593051782333400000),
  (8675358302526568970510180244925044000000, 121708054630838161696069026062007000000),
  (8794671528606746578677140206344570000000, 116892762713300861289119755073948100000),
  (8909093602727188681773389942858853000000, 111926801592427391070987495721898700000),
  (9018477040290888891176605569481566000000, 106816572169012657968080761250868300000),
  (9122680851278902400667173627473171000000, 101568661303277847632848979680110800000),
  (9221570721985176101202785100099465000000, 96189833326782793925253339484838820000),
  (9315019188148533012850952445902976000000, 90687021326771260251090218779356310000),
  (9402905799260209205288566080403291000000, 85067318215007672168226728922810320000),
  (9485117273837846835086631302793532000000, 79337967594131595014608710219798820000),
  (9561547645470614421914916789791209000000, 73506354436199211149469609794034980000),
  (9632098399456186099757320913913607000000, 67579995591228290409403430366492650000),
  (9696678599871028739389940464430046000000, 61566530150240182711435016888432880000),
  (9755205006946567869595595052616392000000, 55473709702803596398604222766248560000),
  (9807602184680365846321148416124375000000, 49309388568509133582920652395759290000),
  (9853802598736421371767736545332611000000, 43081514192444759164750517970252170000),
  (9893746705019081362132390187847117000000, 36798118244090318303852913609766580000),
  (9927383030342101839819039541132532000000, 30467310238174360650511277321166380000),
  (9954668250554822852614339117694420000000, 24097281192509429496543492889932730000),
  (9975567290689960029727541652081154000000, 17696358276943142700907929889718440000),
  (9990053607814911790408394457159232000000, 11273453768764265462406053976223110000),
  (9998111752162421361945480928747488000000, 4845548690885376688032674220365965000)]

/-- n = 88. quadrature_lib.cpp:3864-3951. -/
def b88 : List (Nat × Nat) := [
  (1845819718646721093383473928473235000, 4736677990809636333856231819272877000),
  (9722959733751611969987763620646111000, 11020292815718483142700252243178400000),
  (23884120560055646094494101569312570000, 17299338339313982119876830726860570000),
  (44314609229922224441939005003638780000, 23557396397993308715109073445501910000),
  (70989069561182238580321240792862610000, 29785934980690232915646924659235790000),
  (103873984228516481115538435530514900000, 35976992298981860298799791608404020000),
  (142927949293388617598162445669254200000, 42122737463512365075492906381022540000),
  (188101769681146585050560814415054000000, 48215416610266022003850951328121830000),
  (239338532680989437389833801601518400000, 54247348877146356297009218214649040000),
  (296573683486782273689974342616447100000, 60210932197906061548697764709020730000),
  (359735108026539722097483097514515700000, 66098651568139558540906674754495140000),
  (428743224477364043300109520769764000000, 71903088006499721179672960608112560000),
  (503511083849714725776635467507247700000, 77616927684667769200824081737701130000),
  (583944479702747091881390172960849800000, 83232971041088280225564116672048210000),
  (669942066931093329885433627202478200000, 88744141801620372782475325754466160000),
  (761395489508954564014927408286277400000, 94143495868777256973550197160602840000),
  (858189517047718775745809049531629400000, 99424230056370566218004996540455490000),
  (960202190003817540877334369327945400000, 104579690652883121161271397009516600000),
  (1067304973358564212600105133092649000000, 109603381799949267978171940344760100000),
  (1179362918578965790162013051136269000000, 114488973673905711636238975482545800000),
  (1296234833656961132091162830426559000000, 119230310459298306317893098315010900000),
  (1417773461013747571700290550986649000000, 123821418103843665126607476625703000000),
  (1543825663045597809898284632769785000000, 128256511844809739423896775120379100000),
  (1674232615077734138890031649731895000000, 132530003497173688607044509468344700000),
  (1808830005483367748582296298553286000000, 136636508494276654178119043989706900000),
  (1947448242715905068802063644841911000000, 140570852672043067457894699120167200000),
  (2089912668993563212096208382270339000000, 144328078788177146232384927272464800000),
  (2236043780367222636014120888799022000000, 147903452768096745566761978009438800000),
  (2385657452894281231364774104619046000000, 151292469669717626675687162302037000000),
  (2538565174633566385570562557588568000000, 154490859359560988168514397817286100000),
  (2694574283169017446936243613475286000000, 157494591893024461600208758213970800000),
  (2853488208362878148944877072606173000000, 160299882592031940346334820884692300000),
  (3015106720032544748770080980896559000000, 162903196813660543431197148773584500000),
  (3179226180239008560923494286919756000000, 165301254403733500726403733805164200000),
  (3345639799869018624454372111764877000000, 167491033829765462640325810751326200000),
  (3514137899187678472062288649160153000000, 169469775988051296199462687527398000000),
  (3684508172033186998857509948264471000000, 171234987680100393686847987942989300000),
  (3856535953320843430517994478639537000000, 172784444754035420674326569894785200000),
  (4030004489519266057110199711475989000000, 174116194906996774965645231593270200000),
  (4204695211758028920279544686346316000000, 175228560145021306982931048508844700000),
  (4380388011222604691761890451237321000000, 176120138897295542664393359262054900000),
  (4556861516489619705976932297857649000000, 176789807782119218968345135716266100000),
  (4733893372452982117390178992918012000000, 177236723022353848530715763090046900000),
  (4911260520489439508555489543210239000000, 177460321508572726480337264795097700000),
  (5088739479510560491444510456789762000000, 177460321508572726480337264795097700000),
  (5266106627547017882609821007081988000000, 177236723022353848530715763090046900000),
  (5443138483510380294023067702142351000000, 176789807782119218968345135716266100000),
  (5619611988777395308238109548762679000000, 176120138897295542664393359262054900000),
  (5795304788241971079720455313653684000000, 175228560145021306982931048508844700000),
  (5969995510480733942889800288524011000000, 174116194906996774965645231593270200000),
  (6143464046679156569482005521360463000000, 172784444754035420674326569894785200000),
  (6315491827966813001142490051735529000000, 171234987680100393686847987942989300000),
  (6485862100812321527937711350839847000000, 169469775988051296199462687527398000000),
  (6654360200130981375545627888235123000000, 167491033829765462640325810751326200000),
  (6820773819760991439076505713080244000000, 165301254403733500726403733805164200000),
  (6984893279967455251229919019103441000000, 162903196813660543431197148773584500000),
  (7146511791637121851055122927393827000000, 160299882592031940346334820884692300000),
  (7305425716830982553063756386524714000000, 157494591893024461600208758213970800000),
  (7461434825366433614429437442411432000000, 154490859359560988168514397817286100000),
  (7614342547105718768635225895380954000000, 151292469669717626675687162302037000000),
  (7763956219632777363985879111200978000000, 147903452768096745566761978009438800000),
  (7910087331006436787903791617729661000000, 144328078788177146232384927272464800000),
  (8052551757284094931197936355158089000000, 140570852672043067457894699120167200000),
  (8191169994516632251417703701446714000000, 136636508494276654178119043989706900000),
  (8325767384922265861109968350268105000000, 132530003497173688607044509468344700000),
  (8456174336954402190101715367230215000000, 128256511844809739423896775120379100000),
  (8582226538986252428299709449013351000000, 123821418103843665126607476625703000000),
  (8703765166343038867908837169573441000000, 119230310459298306317893098315010900000),
  (8820637081421034209837986948863731000000, 114488973673905711636238975482545800000),
  (8932695026641435787399894866907351000000, 109603381799949267978171940344760100000),
  (9039797809996182459122665630672055000000, 104579690652883121161271397009516600000),
  (9141810482952281224254190950468371000000, 99424230056370566218004996540455490000),
  (9238604510491045435985072591713722000000, 94143495868777256973550197160602840000),
  (9330057933068906670114566372797521000000, 88744141801620372782475325754466160000),
  (9416055520297252908118609827039150000000, 83232971041088280225564116672048210000),
  (9496488916150285274223364532492752000000, 77616927684667769200824081737701130000),
  (9571256775522635956699890479230236000000, 71903088006499721179672960608112560000),
  (9640264891973460277902516902485484000000, 66098651568139558540906674754495140000),
  (9703426316513217726310025657383553000000, 60210932197906061548697764709020730000),
  (9760661467319010562610166198398481000000, 54247348877146356297009218214649040000),
  (9811898230318853414949439185584946000000, 48215416610266022003850951328121830000),
  (9857072050706611382401837554330745000000, 42122737463512365075492906381022540000),
  (9896126015771483518884461564469486000000, 35976992298981860298799791608404020000),
  (9929010930438817761419678759207138000000, 29785934980690232915646924659235790000),
  (9955685390770077775558060994996362000000, 23557396397993308715109073445501910000),
  (9976115879439944353905505898430687000000, 17299338339313982119876830726860570000),
  (9990277040266248388030012236379354000000, 11020292815718483142700252243178400000),
  (9998154180281353278906616526071527000000, 4736677990809636333856231819272877000)]

/-- n = 89. quadrature_lib.cpp:3952-4040. -/
def b89 : List (Nat × Nat) := [
  (1804805677332702092729356542607340000, 4631435525967364077652137160007517000),
  (9506971448630352578674596754123052000, 10775562911095568823178195629305600000),
  (23353797966251198363858884356397550000, 16915523962037275663170994835853000000),
  (43331305956673496634126480883221100000, 23035436717316207165274081845205700000),
  (69415260694481629979243419774603060000, 29127128943850537298223268756512500000),
  (101573617080616794351917375779018900000, 35182984354945570686950993940835980000),
  (139766786255453201479176906988643700000, 41195512626945393652864254438008390000),
  (183947726717322790730773218253644500000, 47157296303989452698554698053918220000),
  (234062013535795297106088051172321700000, 53060986449860940163403626888631420000),
  (290047909148925404660606550674332400000, 58899307904374460883095776944436650000),
  (351836440881406983134629694012394100000, 64665066963013386457932487338250370000),
  (419351486555882843944687874867942400000, 70351159743222414069436130474351740000),
  (492509868580011239562343973607944800000, 75950580723330616987365711887699690000),
  (571221456577650258596096639124189300000, 81456431273961922887704823812998540000),
  (655389278514581403723273579613601100000, 86861928107512008348204222736817070000),
  (744909640216612765622165626680286300000, 92160411608920578379229803141738360000),
  (839672253149604364457634299073180700000, 97345354025759365693372628939373080000),
  (939560370312569848817532915048817400000, 102410367502001351061225056380309000000),
  (1044450930081033142717561906259155000000, 107349211942805704217063428276808000000),
  (1154214707825994498359417055664715000000, 112155802699181835641794180640259400000),
  (1268716475123199953095550031930890000000, 116824218062277229135843771306920900000),
  (1387815166357458783148000195932180000000, 121348706557611696368308101857377000000),
  (1511364052517300470527018852647435000000, 125723694030012843114077580468227300000),
  (1639210921966202245886650163171051000000, 129943790510369181257407047385834600000),
  (1771198267967900756417065873702030000000, 134003796855645888562828176659205300000),
  (1907163482734904396506593789413264000000, 137898711153922912667386810148310700000),
  (2046939057761238034784527130004944000000, 141623734886526036140174201008123000000),
  (2190352790192678475333561105725891000000, 145174278839634059150096619276015100000),
  (2337227994980280215154375894012777000000, 148545968758062298136510140045823900000),
  (2487383722555852242771199791258440000000, 151734650734245646717038567716126000000),
  (2640634981761234181049621945994290000000, 154736396325774223947394798929007600000),
  (2796792967756740907025748528860656000000, 157547507395171418293992845795568100000),
  (2955665294628005906517922725118340000000, 160164520665947927535157817932347100000),
  (3117056232404661980597969237625072000000, 162584211989316034837928333567604400000),
  (3280766948198860237610446147594003000000, 164803600316305585371461411149648400000),
  (3446595751166551001283664040524922000000, 166819951370386604698596295001548800000),
  (3614338340989739410264635580320656000000, 168630781016072853531547519493492200000),
  (3783788059573589752054994857121154000000, 170233858319355435836779298742061600000),
  (3954736145648291220635448070863955000000, 171627208296195439089827099210045400000),
  (4126971991962018629622524515296012000000, 172809114345689040682169128661708000000),
  (4300283404748129016662480999456261000000, 173778120364907104604057559377089000000),
  (4474456865146932941506545418630065000000, 174533032542803549455057457904270000000),
  (4649277792259971039337213908342971000000, 175072920830982216845765217983832400000),
  (4824530807512714993076264209545537000000, 175397120089510126585837976538528900000),
  (5000000000000000000000000000000000000000, 175505230906365385158119443439922600000),
  (5175469192487285006923735790454463000000, 175397120089510126585837976538528900000),
  (5350722207740028960662786091657028000000, 175072920830982216845765217983832400000),
  (5525543134853067058493454581369935000000, 174533032542803549455057457904270000000),
  (5699716595251870983337519000543739000000, 173778120364907104604057559377089000000),
  (5873028008037981370377475484703988000000, 172809114345689040682169128661708000000),
  (6045263854351708779364551929136045000000, 171627208296195439089827099210045400000),
  (6216211940426410247945005142878845000000, 170233858319355435836779298742061600000),
  (6385661659010260589735364419679344000000, 168630781016072853531547519493492200000),
  (6553404248833448998716335959475078000000, 166819951370386604698596295001548800000),
  (6719233051801139762389553852405997000000, 164803600316305585371461411149648400000),
  (6882943767595338019402030762374928000000, 162584211989316034837928333567604400000),
  (7044334705371994093482077274881660000000, 160164520665947927535157817932347100000),
  (7203207032243259092974251471139344000000, 157547507395171418293992845795568100000),
  (7359365018238765818950378054005710000000, 154736396325774223947394798929007600000),
  (7512616277444147757228800208741560000000, 151734650734245646717038567716126000000),
  (7662772005019719784845624105987223000000, 148545968758062298136510140045823900000),
  (7809647209807321524666438894274108000000, 145174278839634059150096619276015100000),
  (7953060942238761965215472869995055000000, 141623734886526036140174201008123000000),
  (8092836517265095603493406210586736000000, 137898711153922912667386810148310700000),
  (8228801732032099243582934126297970000000, 134003796855645888562828176659205300000),
  (8360789078033797754113349836828949000000, 129943790510369181257407047385834600000),
  (8488635947482699529472981147352565000000, 125723694030012843114077580468227300000),
  (8612184833642541216851999804067820000000, 121348706557611696368308101857377000000),
  (8731283524876800046904449968069110000000, 116824218062277229135843771306920900000),
  (8845785292174005501640582944335286000000, 112155802699181835641794180640259400000),
  (8955549069918966857282438093740846000000, 107349211942805704217063428276808000000),
  (9060439629687430151182467084951182000000, 102410367502001351061225056380309000000),
  (9160327746850395635542365700926819000000, 97345354025759365693372628939373080000),
  (9255090359783387234377834373319714000000, 92160411608920578379229803141738360000),
  (9344610721485418596276726420386399000000, 86861928107512008348204222736817070000),
  (9428778543422349741403903360875811000000, 81456431273961922887704823812998540000),
  (9507490131419988760437656026392056000000, 75950580723330616987365711887699690000),
  (9580648513444117156055312125132058000000, 70351159743222414069436130474351740000),
  (9648163559118593016865370305987606000000, 64665066963013386457932487338250370000),
  (9709952090851074595339393449325668000000, 58899307904374460883095776944436650000),
  (9765937986464204702893911948827678000000, 53060986449860940163403626888631420000),
  (9816052273282677209269226781746355000000, 47157296303989452698554698053918220000),
  (9860233213744546798520823093011356000000, 41195512626945393652864254438008390000),
  (9898426382919383205648082624220981000000, 35182984354945570686950993940835980000),
  (9930584739305518370020756580225396000000, 29127128943850537298223268756512500000),
  (9956668694043326503365873519116779000000, 23035436717316207165274081845205700000),
  (9976646202033748801636141115643603000000, 16915523962037275663170994835853000000),
  (9990493028551369647421325403245877000000, 10775562911095568823178195629305600000),
  (9998195194322667297907270643457392000000, 4631435525967364077652137160007517000)]

/-- n = 90. quadrature_lib.cpp:4041-4130. -/
def b90 : List (Nat × Nat) := [
  (1765143566807812683757749817350585000, 4529661856074165468622571043384717000),
  (9298100307159232193471905234660885000, 10538893872631649457378528389334120000),
  (22840939708276680366222965146067630000, 16544336216680090977158918474130840000),
  (42380355944686069354265378489102500000, 22530618068374889320689981873213250000),
  (67893174710835756328729714437884990000, 28489907803736763004239110226795810000),
  (99348743274258072705233885938536720000, 34414916042316421573650352434845090000),
  (136709189549034300012675847773856800000, 40298474723100078293358938828408010000),
  (179929509142472583031667040149188300000, 46133484788709954701598491911782680000),
  (228957630592498319196398683152599000000, 51912911549466073069038533326219110000),
  (283734481773211159232123917858996100000, 57629789445740294252968815897441850000),
  (344194062497839964970766938852712600000, 63277229185840644344380119708087340000),
  (410263524667068083138218420145578200000, 68848425561685467153757018147027320000),
  (481863260343486530650072086923364000000, 74336665440216620251922898948001470000),
  (558906997826270093508121372202830000000, 79735335755033195066034006686070180000),
  (641301905685482827629860561807182900000, 85037931426113378546986670606917970000),
  (728948704664640588569892457014222900000, 90238063172301180820248536959570680000),
  (821741787333114772179004239927761600000, 95329465195686592126617650631324370000),
  (919569345352594717781231913147980600000, 100306002723197979822662363071200500000),
  (1022313504208759325681997062582700000000, 105161679393612815585311598107122400000),
  (1129850465248328765965210041500217000000, 109890644479670669193459094199255100000),
  (1242050654851807659107923987610107000000, 114487199935815923174943194944164800000),
  (1358778880563048181871002511570731000000, 118945807262643616050504422235660800000),
  (1479894493988044282222653178964405000000, 123261094179524264679830310314852500000),
  (1605251560267014269093656773598555000000, 127427861097216142422336603738185300000),
  (1734699033915789040193689418566617000000, 131441087382572936807979441486619100000),
  (1868080940824774366186953341516229000000, 135295937407739792608071177248260500000),
  (2005236566196289070556153084805931000000, 138987766376511375790193248886800600000),
  (2146000648193895106473191642938763000000, 142512125920807081593776669654778900000),
  (2290203577070432869053477475795440000000, 145864769460503712432789953150808000000),
  (2437671599534860145057687558608848000000, 149041657320156377435739177291399200000),
  (2588227028111671537399393890245129000000, 152038961596434763451971654694805400000),
  (2741688455240653162118106835227586000000, 154853070770404604729683024590184000000),
  (2897870971859011219493022770648217000000, 157480594059093180384789652264788600000),
  (3056586390202508966117454570966988000000, 159918365501092880197279877177224500000),
  (3217643470557160769344057424771957000000, 162163447771278084558947720257750900000),
  (3380848151688270167443023757502950000000, 164213135720037522893151423997690000000),
  (3546003784669166742251989398862788000000, 166064959632756582570204145432897600000),
  (3712911369827899350395562166034100000000, 167716688205621383414665534693240300000),
  (3881369796526385703655207963002759000000, 169166331234158436289637541232441900000),
  (4051176085483104904895628734094161000000, 170412142011269977318025108799941500000),
  (4222125633347354402442974368140401000000, 171452619431875209658486525140720400000),
  (4394012459230379585156253613012354000000, 172286509801621280872978193522847400000),
  (4566629452896326149573817267614577000000, 172912808347484457090268986542026900000),
  (4739768624313965254703606348078576000000, 173330760428441200941361542609740600000),
  (4913221354268501737693508136459091000000, 173539862444750289602300670622038900000),
  (5086778645731498262306491863540909000000, 173539862444750289602300670622038900000),
  (5260231375686034745296393651921425000000, 173330760428441200941361542609740600000),
  (5433370547103673850426182732385423000000, 172912808347484457090268986542026900000),
  (5605987540769620414843746386987646000000, 172286509801621280872978193522847400000),
  (5777874366652645597557025631859598000000, 171452619431875209658486525140720400000),
  (5948823914516895095104371265905839000000, 170412142011269977318025108799941500000),
  (6118630203473614296344792036997241000000, 169166331234158436289637541232441900000),
  (6287088630172100649604437833965900000000, 167716688205621383414665534693240300000),
  (6453996215330833257748010601137212000000, 166064959632756582570204145432897600000),
  (6619151848311729832556976242497050000000, 164213135720037522893151423997690000000),
  (6782356529442839230655942575228043000000, 162163447771278084558947720257750900000),
  (6943413609797491033882545429033011000000, 159918365501092880197279877177224500000),
  (7102129028140988780506977229351783000000, 157480594059093180384789652264788600000),
  (7258311544759346837881893164772414000000, 154853070770404604729683024590184000000),
  (7411772971888328462600606109754871000000, 152038961596434763451971654694805400000),
  (7562328400465139854942312441391152000000, 149041657320156377435739177291399200000),
  (7709796422929567130946522524204560000000, 145864769460503712432789953150808000000),
  (7853999351806104893526808357061237000000, 142512125920807081593776669654778900000),
  (7994763433803710929443846915194068000000, 138987766376511375790193248886800600000),
  (8131919059175225633813046658483771000000, 135295937407739792608071177248260500000),
  (8265300966084210959806310581433383000000, 131441087382572936807979441486619100000),
  (8394748439732985730906343226401445000000, 127427861097216142422336603738185300000),
  (8520105506011955717777346821035596000000, 123261094179524264679830310314852500000),
  (8641221119436951818128997488429270000000, 118945807262643616050504422235660800000),
  (8757949345148192340892076012389894000000, 114487199935815923174943194944164800000),
  (8870149534751671234034789958499784000000, 109890644479670669193459094199255100000),
  (8977686495791240674318002937417301000000, 105161679393612815585311598107122400000),
  (9080430654647405282218768086852020000000, 100306002723197979822662363071200500000),
  (9178258212666885227820995760072238000000, 95329465195686592126617650631324370000),
  (9271051295335359411430107542985777000000, 90238063172301180820248536959570680000),
  (9358698094314517172370139438192818000000, 85037931426113378546986670606917970000),
  (9441093002173729906491878627797170000000, 79735335755033195066034006686070180000),
  (9518136739656513469349927913076636000000, 74336665440216620251922898948001470000),
  (9589736475332931916861781579854421000000, 68848425561685467153757018147027320000),
  (9655805937502160035029233061147288000000, 63277229185840644344380119708087340000),
  (9716265518226788840767876082141003000000, 57629789445740294252968815897441850000),
  (9771042369407501680803601316847401000000, 51912911549466073069038533326219110000),
  (9820070490857527416968332959850812000000, 46133484788709954701598491911782680000),
  (9863290810450965699987324152226143000000, 40298474723100078293358938828408010000),
  (9900651256725741927294766114061463000000, 34414916042316421573650352434845090000),
  (9932106825289164243671270285562115000000, 28489907803736763004239110226795810000),
  (9957619644055313930645734621510897000000, 22530618068374889320689981873213250000),
  (9977159060291723319633777034853932000000, 16544336216680090977158918474130840000),
  (9990701899692840767806528094765339000000, 10538893872631649457378528389334120000),
  (9998234856433192187316242250182649000000, 4529661856074165468622571043384717000)]

/-- n = 91. quadrature_lib.cpp:4131-4221. -/
def b91 : List (Nat × Nat) := [
  (1726774617119348085053862422011975000, 4431206203347070882917144986363109000),
  (9096037047326226633899299898970578000, 10309935610161148303410397597862970000),
  (22344787473237731553084408967562600000, 16185227539860524885497284485599590000),
  (41460355913614492161898724838808310000, 22042198736513384095314991692706950000),
  (66420571382651065460318070312889190000, 27873340237398944989159032434004390000),
  (97196098793932804815686000211227140000, 33671672161344423326305667729536220000),
  (133750690846546328387662381226931600000, 39430331573144507998153054446202980000),
  (176041271263619621117524481486063900000, 45142520946172438744566909663957110000),
  (224017996338618180629890513638972800000, 50801503272077383644460967471775270000),
  (277624317271406659686042593586691000000, 56400606368848414917043589990315180000),
  (336797048218677966938927560732465300000, 61933229517783715272675302113022340000),
  (401466441382747559293346976052703800000, 67392850769154895971593111561242550000),
  (471556269517140674987097336240369800000, 72773034426043480424205352381275210000),
  (546983915928012981042506670071624800000, 78067438535250298754752966621405580000),
  (627660471938848070531976781531494100000, 83269822315306200861290117901805120000),
  (713490841736787104609077949205426500000, 88374053487609525301860227167277530000),
  (804373854493064841019407692716368100000, 93374115490840627108928096970962770000),
  (900202383633598330118409179065776500000, 98264114564845733023708323999859690000),
  (1000863473123538796747548740927582000000, 103038286692992303702294868295631900000),
  (1106238470619388276526735446419850000000, 107691004393428331481121701734446400000),
  (1216203167333153557036966341735135000000, 112216783350486866866606110146104500000),
  (1330627944444526088727660993431155000000, 116610288877994014179979987947537100000),
  (1449377925889030641284272521021235000000, 120866342206614397111089291573600300000),
  (1572313137342376724268278985294258000000, 124979926587674787162807483953579600000),
  (1699288671213826049048677237799072000000, 128946193206180080943950045155849800000),
  (1830154857454233592505981511340035000000, 132760466895994540515396075663612800000),
  (1964757439977519736108822025083854000000, 136418251650414901394949187914801900000),
  (2102937758487684338371040199615183000000, 139915235921615831905929415935384800000),
  (2244532935497082200788960774426293000000, 143247297702705121982481336556937300000),
  (2389376068315547057633714751499774000000, 146410509386387398591319990403897300000),
  (2537296425784082912190891221990134000000, 149401142394501874663856020503591700000),
  (2688119649521242741808767419629238000000, 152215671572971974517235860146368600000),
  (2841667959444990984069136184565099000000, 154850779346982721078094182568923700000),
  (2997760363327803474848373967967920000000, 157303359631485442725951672717103100000),
  (3156212870138002185688057683395481000000, 159570521492418486442993831923870800000),
  (3316838706915857544935287795851905000000, 161649592554326972420469475947945000000),
  (3479448538928823407687018436095493000000, 163538122150363914742102130124094300000),
  (3643850692846403653049574340239926000000, 165233884210958956000845251619240400000),
  (3809851382671589405037247520134190000000, 166734879887749193184891761133451800000),
  (3977254938162556131715744696903755000000, 168039339909678765549121236452563500000),
  (4145864035475374163908221998841331000000, 169145726668489678968280997826489200000),
  (4315479929755867919896890961423203000000, 170052736031145393327443327655010600000),
  (4485902689406461390396875792671522000000, 170759298877050630928372503166493400000),
  (4656931431751872921248173885930946000000, 171264582358255300335961232249964300000),
  (4828364559825873345765042920931115000000, 171567990881156992862100979725585100000),
  (5000000000000000000000000000000000000000, 171669166808544815817023003485493600000),
  (5171635440174126654234957079068885000000, 171567990881156992862100979725585100000),
  (5343068568248127078751826114069054000000, 171264582358255300335961232249964300000),
  (5514097310593538609603124207328478000000, 170759298877050630928372503166493400000),
  (5684520070244132080103109038576797000000, 170052736031145393327443327655010600000),
  (5854135964524625836091778001158669000000, 169145726668489678968280997826489200000),
  (6022745061837443868284255303096246000000, 168039339909678765549121236452563500000),
  (6190148617328410594962752479865810000000, 166734879887749193184891761133451800000),
  (6356149307153596346950425659760074000000, 165233884210958956000845251619240400000),
  (6520551461071176592312981563904507000000, 163538122150363914742102130124094300000),
  (6683161293084142455064712204148095000000, 161649592554326972420469475947945000000),
  (6843787129861997814311942316604519000000, 159570521492418486442993831923870800000),
  (7002239636672196525151626032032080000000, 157303359631485442725951672717103100000),
  (7158332040555009015930863815434901000000, 154850779346982721078094182568923700000),
  (7311880350478757258191232580370762000000, 152215671572971974517235860146368600000),
  (7462703574215917087809108778009865000000, 149401142394501874663856020503591700000),
  (7610623931684452942366285248500226000000, 146410509386387398591319990403897300000),
  (7755467064502917799211039225573707000000, 143247297702705121982481336556937300000),
  (7897062241512315661628959800384817000000, 139915235921615831905929415935384800000),
  (8035242560022480263891177974916145000000, 136418251650414901394949187914801900000),
  (8169845142545766407494018488659964000000, 132760466895994540515396075663612800000),
  (8300711328786173950951322762200928000000, 128946193206180080943950045155849800000),
  (8427686862657623275731721014705742000000, 124979926587674787162807483953579600000),
  (8550622074110969358715727478978765000000, 120866342206614397111089291573600300000),
  (8669372055555473911272339006568845000000, 116610288877994014179979987947537100000),
  (8783796832666846442963033658264865000000, 112216783350486866866606110146104500000),
  (8893761529380611723473264553580149000000, 107691004393428331481121701734446400000),
  (8999136526876461203252451259072418000000, 103038286692992303702294868295631900000),
  (9099797616366401669881590820934223000000, 98264114564845733023708323999859690000),
  (9195626145506935158980592307283632000000, 93374115490840627108928096970962770000),
  (9286509158263212895390922050794574000000, 88374053487609525301860227167277530000),
  (9372339528061151929468023218468506000000, 83269822315306200861290117901805120000),
  (9453016084071987018957493329928375000000, 78067438535250298754752966621405580000),
  (9528443730482859325012902663759630000000, 72773034426043480424205352381275210000),
  (9598533558617252440706653023947296000000, 67392850769154895971593111561242550000),
  (9663202951781322033061072439267535000000, 61933229517783715272675302113022340000),
  (9722375682728593340313957406413309000000, 56400606368848414917043589990315180000),
  (9775982003661381819370109486361028000000, 50801503272077383644460967471775270000),
  (9823958728736380378882475518513937000000, 45142520946172438744566909663957110000),
  (9866249309153453671612337618773069000000, 39430331573144507998153054446202980000),
  (9902803901206067195184313999788772000000, 33671672161344423326305667729536220000),
  (9933579428617348934539681929687111000000, 27873340237398944989159032434004390000),
  (9958539644086385507838101275161192000000, 22042198736513384095314991692706950000),
  (9977655212526762268446915591032437000000, 16185227539860524885497284485599590000),
  (9990903962952673773366100700101029000000, 10309935610161148303410397597862970000),
  (9998273225382880651914946137577988000000, 4431206203347070882917144986363109000)]

/-- n = 92. quadrature_lib.cpp:4222-4313. -/
def b92 : List (Nat × Nat) := [
  (1689643217377227756093002026715065000, 4335925893835710676769871629972704000),
  (8900489022749231088927170285285814000, 10088356831314192959398323578083030000),
  (21864623653924154378560193218044560000, 15837679716980489371295281041432080000),
  (40569977813732606888814001687360910000, 21569476659308502361695574366550520000),
  (64995330379939795499797748043854750000, 27276544540004354935784809215109030000),
  (95112593949229863134184705562321860000, 32952196671074476115889151728430080000),
  (130887059865290326329991064286704100000, 38589859186867842522663890803773590000),
  (172277477892020493179130969306989200000, 44183020282339386872740400538264580000),
  (219236114329965267009025397771011300000, 49725225098630410208852555977252490000),
  (271708810578185217284491650176070300000, 55210079613176971119926024354903580000),
  (329635046964522508835240006113720000000, 60631256813188552646483657376961990000),
  (392948013144619726821385470717420700000, 65982503528555690145558453103067300000),
  (461574685445374781962159958544491100000, 71257647444769626329035927488788240000),
  (535435911236118978839238095253709800000, 76450604128982507534530100742352740000),
  (614446500302151651899166238084503300000, 81555384001279790024070415748789640000),
  (698515323147765585102312174386844700000, 86566099218448881805700803421973490000),
  (787545416131095297966891436711210700000, 91476970451337786455936461933820630000),
  (881434093317556178183442448041711000000, 96282333542797373561860904145784230000),
  (980073064927167811647809910930338200000, 100976646035937418747822153479077500000),
  (1083348562241550103990411011123613000000, 105554493563812309049880470961916500000),
  (1191141468827918621454350074520629000000, 110010596092429286993718542765793400000),
  (1303327457929559811134353622669386000000, 114339814009462712021704466546805900000),
  (1419777135864833987994875035446124000000, 118537154051409561967685767057727400000),
  (1540356191269634804483616147696623000000, 122597775062204871285854521905698400000),
  (1664925550011379611969628802995168000000, 126516993576566128487741624578537600000),
  (1793341535595992535793061164395756000000, 130290289221570896112288467050185100000),
  (1925456034882961399254411228178419000000, 133913309930201616502440801247897000000),
  (2061116668917398136532341619805251000000, 137381876960820866975896387822704200000),
  (2200166968682111168829474756594626000000, 140691989716772022572256594010635800000),
  (2342446555567010607841201099597252000000, 143839830360535879111897517366441900000),
  (2487791326347717430556995850437487000000, 146821768217114063063733102396294700000),
  (2636033642460040824517849444249217000000, 149634363961555366539338307364910500000),
  (2787002523352028841595837295036841000000, 152274373585791604903177079630554000000),
  (2940523843690591456985271985772339000000, 154738752140205158340204850083041700000),
  (3096420534195247150484525412712683000000, 157024657245610889580701663726105200000),
  (3254512785867359081026237638365119000000, 159129452371600429129862688171992800000),
  (3414618257379309464257452691442847000000, 161050709877466647678722190566200400000),
  (3576552285384415284530576206422355000000, 162786213812200226215809477946199100000),
  (3740128097505019097777013569034830000000, 164333962470328301632340086150114300000),
  (3905157027753099237734865253710470000000, 165692170700646909113102603906610100000),
  (4071448734134937746488043076411280000000, 166859271965184051539005618808762300000),
  (4238811418188865017807296348610428000000, 167833920146018381550377612770014700000),
  (4407052046202870352647255566385670000000, 168614991097869358469003674572564200000),
  (4575976571856929936608738348651334000000, 169201583944668009457091996318825900000),
  (4745390160033260382848118900552836000000, 169593022118612747475136157187241000000),
  (4915097411536358828079717328874271000000, 169788854140511739835012968411838000000),
  (5084902588463641171920282671125729000000, 169788854140511739835012968411838000000),
  (5254609839966739617151881099447165000000, 169593022118612747475136157187241000000),
  (5424023428143070063391261651348666000000, 169201583944668009457091996318825900000),
  (5592947953797129647352744433614330000000, 168614991097869358469003674572564200000),
  (5761188581811134982192703651389573000000, 167833920146018381550377612770014700000),
  (5928551265865062253511956923588720000000, 166859271965184051539005618808762300000),
  (6094842972246900762265134746289530000000, 165692170700646909113102603906610100000),
  (6259871902494980902222986430965170000000, 164333962470328301632340086150114300000),
  (6423447714615584715469423793577645000000, 162786213812200226215809477946199100000),
  (6585381742620690535742547308557152000000, 161050709877466647678722190566200400000),
  (6745487214132640918973762361634881000000, 159129452371600429129862688171992800000),
  (6903579465804752849515474587287317000000, 157024657245610889580701663726105200000),
  (7059476156309408543014728014227661000000, 154738752140205158340204850083041700000),
  (7212997476647971158404162704963159000000, 152274373585791604903177079630554000000),
  (7363966357539959175482150555750783000000, 149634363961555366539338307364910500000),
  (7512208673652282569443004149562513000000, 146821768217114063063733102396294700000),
  (7657553444432989392158798900402748000000, 143839830360535879111897517366441900000),
  (7799833031317888831170525243405375000000, 140691989716772022572256594010635800000),
  (7938883331082601863467658380194749000000, 137381876960820866975896387822704200000),
  (8074543965117038600745588771821581000000, 133913309930201616502440801247897000000),
  (8206658464404007464206938835604244000000, 130290289221570896112288467050185100000),
  (8335074449988620388030371197004831000000, 126516993576566128487741624578537600000),
  (8459643808730365195516383852303378000000, 122597775062204871285854521905698400000),
  (8580222864135166012005124964553877000000, 118537154051409561967685767057727400000),
  (8696672542070440188865646377330614000000, 114339814009462712021704466546805900000),
  (8808858531172081378545649925479371000000, 110010596092429286993718542765793400000),
  (8916651437758449896009588988876388000000, 105554493563812309049880470961916500000),
  (9019926935072832188352190089069662000000, 100976646035937418747822153479077500000),
  (9118565906682443821816557551958288000000, 96282333542797373561860904145784230000),
  (9212454583868904702033108563288789000000, 91476970451337786455936461933820630000),
  (9301484676852234414897687825613156000000, 86566099218448881805700803421973490000),
  (9385553499697848348100833761915497000000, 81555384001279790024070415748789640000),
  (9464564088763881021160761904746291000000, 76450604128982507534530100742352740000),
  (9538425314554625218037840041455509000000, 71257647444769626329035927488788240000),
  (9607051986855380273178614529282579000000, 65982503528555690145558453103067300000),
  (9670364953035477491164759993886281000000, 60631256813188552646483657376961990000),
  (9728291189421814782715508349823930000000, 55210079613176971119926024354903580000),
  (9780763885670034732990974602228989000000, 49725225098630410208852555977252490000),
  (9827722522107979506820869030693011000000, 44183020282339386872740400538264580000),
  (9869112940134709673670008935713296000000, 38589859186867842522663890803773590000),
  (9904887406050770136865815294437678000000, 32952196671074476115889151728430080000),
  (9935004669620060204500202251956145000000, 27276544540004354935784809215109030000),
  (9959430022186267393111185998312639000000, 21569476659308502361695574366550520000),
  (9978135376346075845621439806781956000000, 15837679716980489371295281041432080000),
  (9991099510977250768911072829714714000000, 10088356831314192959398323578083030000),
  (9998310356782622772243906997973284000000, 4335925893835710676769871629972704000)]

/-- n = 93. quadrature_lib.cpp:4314-4406. -/
def b93 : List (Nat × Nat) := [
  (1653696714156558365895711274063686000, 4243685840339555024398168378848702000),
  (8711179142936121237534018531593265000, 9873843843434041944698357673208938000),
  (21399768755249103098676979389068970000, 15501202015496583877323722916292090000),
  (39707964039686294193892079711856560000, 21111786912033039993166670087216410000),
  (63615443657138670341518384996447630000, 26698685490846073068792002179317040000),
  (93095302332491966160669202726399370000, 32255488971556379445290109901770790000),
  (128114289332947715121339453815542800000, 37775897503849103758094425956876240000),
  (168632884799704371892443343708848100000, 43253670177143241570702905278944580000),
  (214605354674383238846778583448584400000, 48682619709438439134733636828417830000),
  (265979805757622727739226407110442500000, 54056615952712446910130541438395210000),
  (322698245624053743162575757433599300000, 59369591637235625493068888008805780000),
  (384696648670732578053751418174384000000, 64615548765926752280134634413547800000),
  (451905028671617771500307387414727200000, 69788565190039853620351490437331980000),
  (524247517925004862571201174732630600000, 74882801203359404769594359461805700000),
  (601642452974985189299662292099025700000, 79892506088910583941587149944130030000),
  (684002466841991424377331746769758900000, 84812024586645054506135204327831270000),
  (771234587673693485267401312142893700000, 89635803264068565894266095337850070000),
  (863240343712740418242616835084964500000, 94358396777540173072150072211047410000),
  (959915874467067106769417653104964200000, 98974474014639643340277216526722270000),
  (1061152047959623994002339849499137000000, 103478824109343672442946788940335200000),
  (1166834583926535203019793674701969000000, 107866362322499090075287765547186800000),
  (1276844182825427699073918852495521000000, 112132135780547859445533788568254100000),
  (1391056660508801745458911356461181000000, 116271329065788758449599875443326400000),
  (1509343088410732954270046122197830000000, 120279269651723280765327093229518200000),
  (1631569939088860422142725543384509000000, 124151433177262909459176425121245200000),
  (1757599236957500533083007218104624000000, 127883448553789194610878558865257200000),
  (1887288714041821836378692338096702000000, 131471102899266373761490179926226400000),
  (2020491970577319778293508731833062000000, 134910346293813665243938624905825100000),
  (2157058640273341583340371560347388000000, 138197296351353598565580851646846700000),
  (2296834560054133913646016260076134000000, 141328242602165321787144407901619700000),
  (2439661944085822863224166443781477000000, 144299650681388531814533864287981000000),
  (2585379561892891712765078186720844000000, 147108166318744887427578753291769400000),
  (2733822920363101270353672678929454000000, 149750619124969620829388193819855700000),
  (2884824449435405198964355878398591000000, 152224026170676547482379408339403600000),
  (3038213691261253063506763337927224000000, 154525595353614679543840397509408500000),
  (3193817492625751361276852996699828000000, 156652728550514009629574930813365900000),
  (3351460200411471786038148598207121000000, 158603024549961544162937780785816400000),
  (3510963859884260454909862691786545000000, 160374281762996097908579568245277800000),
  (3672148415577215594932621077676659000000, 161964500708361463531517163792615800000),
  (3834831914546067781783746756430778000000, 163371886269612078774319938572686400000),
  (3998830711766519517138299122903296000000, 164594849721522955662385895458543900000),
  (4163959677441682716668001942957858000000, 165632010523516129864698200695878400000),
  (4330032405985596266372984953589096000000, 166482197878078946726210851785574000000),
  (4496861426446913609845545250641094000000, 167144452052414831471276170833478000000),
  (4664258414135224478061928301724850000000, 167618025461834498662335645731984100000),
  (4832034403211117193644061313334702000000, 167902383513664541021166134708599400000),
  (5000000000000000000000000000000000000000, 167997205210720698470954179847522100000),
  (5167965596788882806355938686665298000000, 167902383513664541021166134708599400000),
  (5335741585864775521938071698275150000000, 167618025461834498662335645731984100000),
  (5503138573553086390154454749358906000000, 167144452052414831471276170833478000000),
  (5669967594014403733627015046410905000000, 166482197878078946726210851785574000000),
  (5836040322558317283331998057042142000000, 165632010523516129864698200695878400000),
  (6001169288233480482861700877096704000000, 164594849721522955662385895458543900000),
  (6165168085453932218216253243569222000000, 163371886269612078774319938572686400000),
  (6327851584422784405067378922323341000000, 161964500708361463531517163792615800000),
  (6489036140115739545090137308213455000000, 160374281762996097908579568245277800000),
  (6648539799588528213961851401792879000000, 158603024549961544162937780785816400000),
  (6806182507374248638723147003300172000000, 156652728550514009629574930813365900000),
  (6961786308738746936493236662072776000000, 154525595353614679543840397509408500000),
  (7115175550564594801035644121601409000000, 152224026170676547482379408339403600000),
  (7266177079636898729646327321070546000000, 149750619124969620829388193819855700000),
  (7414620438107108287234921813279156000000, 147108166318744887427578753291769400000),
  (7560338055914177136775833556218523000000, 144299650681388531814533864287981000000),
  (7703165439945866086353983739923866000000, 141328242602165321787144407901619700000),
  (7842941359726658416659628439652613000000, 138197296351353598565580851646846700000),
  (7979508029422680221706491268166938000000, 134910346293813665243938624905825100000),
  (8112711285958178163621307661903298000000, 131471102899266373761490179926226400000),
  (8242400763042499466916992781895375000000, 127883448553789194610878558865257200000),
  (8368430060911139577857274456615491000000, 124151433177262909459176425121245200000),
  (8490656911589267045729953877802171000000, 120279269651723280765327093229518200000),
  (8608943339491198254541088643538819000000, 116271329065788758449599875443326400000),
  (8723155817174572300926081147504479000000, 112132135780547859445533788568254100000),
  (8833165416073464796980206325298030000000, 107866362322499090075287765547186800000),
  (8938847952040376005997660150500862000000, 103478824109343672442946788940335200000),
  (9040084125532932893230582346895035000000, 98974474014639643340277216526722270000),
  (9136759656287259581757383164915035000000, 94358396777540173072150072211047410000),
  (9228765412326306514732598687857106000000, 89635803264068565894266095337850070000),
  (9315997533158008575622668253230241000000, 84812024586645054506135204327831270000),
  (9398357547025014810700337707900975000000, 79892506088910583941587149944130030000),
  (9475752482074995137428798825267369000000, 74882801203359404769594359461805700000),
  (9548094971328382228499692612585272000000, 69788565190039853620351490437331980000),
  (9615303351329267421946248581825616000000, 64615548765926752280134634413547800000),
  (9677301754375946256837424242566401000000, 59369591637235625493068888008805780000),
  (9734020194242377272260773592889558000000, 54056615952712446910130541438395210000),
  (9785394645325616761153221416551416000000, 48682619709438439134733636828417830000),
  (9831367115200295628107556656291152000000, 43253670177143241570702905278944580000),
  (9871885710667052284878660546184457000000, 37775897503849103758094425956876240000),
  (9906904697667508033839330797273600000000, 32255488971556379445290109901770790000),
  (9936384556342861329658481615003552000000, 26698685490846073068792002179317040000),
  (9960292035960313705806107920288143000000, 21111786912033039993166670087216410000),
  (9978600231244750896901323020610931000000, 15501202015496583877323722916292090000),
  (9991288820857063878762465981468407000000, 9873843843434041944698357673208938000),
  (9998346303285843441634104288725936000000, 4243685840339555024398168378848702000)]

/-- n = 94. quadrature_lib.cpp:4407-4500. -/
def b94 : List (Nat × Nat) := [
  (1618885224751027607678166262950869000, 4154358063410812473207731621875989000),
  (8527844891561968782266159709459657000, 9666099443627094715588136380038237000),
  (20949578991405602884045328354462020000, 15175329455193140136959780357471550000),
  (38873122995616707731068865472641710000, 20668499377038882416485698937531340000),
  (62279008397601056605751188632221200000, 26138971447538837726527608639079710000),
  (91141450583108851378242522914848520000, 31580600455182241115538246505301700000),
  (125428581047674787008423388545439300000, 36987346440711781004314392000867730000),
  (165102520593283055276840156449792300000, 42353225472673179999548283996762430000),
  (210119431285224880060205178944860600000, 47672304164325791250315851049567520000),
  (260429568256191385490227511929393800000, 52938702824770611183621755481054340000),
  (315977335985873108945399876362635000000, 58146600805612072980370641856099600000),
  (376701350310242626561328261471323500000, 63290242488194972224125568950093070000),
  (442534506529712570219621065325099100000, 68363943453034392532200966579986150000),
  (513404053706160037124331317105060000000, 73362096672497321021322725119250680000),
  (589231675135638696142778264083552800000, 78279178662577789300112170892154580000),
  (669933574939006633611353993964690400000, 83109755563327483191643762139065880000),
  (755420570689832999249047984314314200000, 87848489130716259993627885000963890000),
  (845598191984913110103556667759265300000, 92490142628329554769046277957472840000),
  (940366784852585584272523552210506000000, 97029586609910024430259000130435150000),
  (1039621621885774171492797647729319000000, 101461804585055660899442144592097900000),
  (1143253017979381503062730456211004000000, 105781898561106949075226401452730700000),
  (1251146451544932413906041845850407000000, 109985094454700385866986130438215500000),
  (1363182691069004703026816396055186000000, 114066747366776182050060354876231600000),
  (1479237926875898792772010578324615000000, 118022346715071911402539334445248400000),
  (1599183907949136894838728992834740000000, 121847521218344941531732830842425000000),
  (1722888083660723722820053034988394000000, 125538043726762025642901724209283400000),
  (1850213750251634049352266872581832000000, 129089835893083640822013589649150200000),
  (1981020201901713886363396625263310000000, 132498972679458495983469664379405000000),
  (2115162886222091897037093056477932000000, 135761686694832823619412808742011700000),
  (2252493563998298001224558799433670000000, 138874372358171103103255239391163200000),
  (2392860473007580295107240158761112000000, 141833589882880534063647471632930900000),
  (2536108495729403229799160423339331000000, 144636069078031279211376053765796200000),
  (2682079330763803605052765297760449000000, 147278712962168381985957905974879100000),
  (2830611667768180533005386035977156000000, 149758601185719346000439948827041700000),
  (2981541365719205274757656258319083000000, 152072993258213561016407123489306900000),
  (3134701634302860800969304322977219000000, 154219331576745937055534139989458800000),
  (3289923218232162970849264935027969000000, 156195244252337089410955588930851800000),
  (3447034584288879067728910803621452000000, 157998547731066002323869959062571500000),
  (3605862110882548569779182025534457000000, 159627249207078069629203750565897300000),
  (3766230279917328742223523393111087000000, 161079548824801535564090724573696900000),
  (3927961870754636947275229627019282000000, 162353841667938397422542223920507100000),
  (4090878156057245270092108288731680000000, 163448719533031535762642259824804000000),
  (4254799099298403692351972962787221000000, 164362972485647953630738566990839600000),
  (4419543553717727892497787148826984000000, 165095590197458275383353709509119100000),
  (4584929462503988835876156384464874000000, 165645763062734816080025869698427700000),
  (4750774059983585397851793734806554000000, 166012883093034318993831789260609300000),
  (4916894073592369831117984657887223000000, 166196544589076604003526207370228300000),
  (5083105926407630168882015342112777000000, 166196544589076604003526207370228300000),
  (5249225940016414602148206265193446000000, 166012883093034318993831789260609300000),
  (5415070537496011164123843615535126000000, 165645763062734816080025869698427700000),
  (5580456446282272107502212851173016000000, 165095590197458275383353709509119100000),
  (5745200900701596307648027037212780000000, 164362972485647953630738566990839600000),
  (5909121843942754729907891711268321000000, 163448719533031535762642259824804000000),
  (6072038129245363052724770372980718000000, 162353841667938397422542223920507100000),
  (6233769720082671257776476606888913000000, 161079548824801535564090724573696900000),
  (6394137889117451430220817974465543000000, 159627249207078069629203750565897300000),
  (6552965415711120932271089196378548000000, 157998547731066002323869959062571500000),
  (6710076781767837029150735064972031000000, 156195244252337089410955588930851800000),
  (6865298365697139199030695677022781000000, 154219331576745937055534139989458800000),
  (7018458634280794725242343741680917000000, 152072993258213561016407123489306900000),
  (7169388332231819466994613964022844000000, 149758601185719346000439948827041700000),
  (7317920669236196394947234702239551000000, 147278712962168381985957905974879100000),
  (7463891504270596770200839576660669000000, 144636069078031279211376053765796200000),
  (7607139526992419704892759841238888000000, 141833589882880534063647471632930900000),
  (7747506436001701998775441200566330000000, 138874372358171103103255239391163200000),
  (7884837113777908102962906943522069000000, 135761686694832823619412808742011700000),
  (8018979798098286113636603374736690000000, 132498972679458495983469664379405000000),
  (8149786249748365950647733127418168000000, 129089835893083640822013589649150200000),
  (8277111916339276277179946965011606000000, 125538043726762025642901724209283400000),
  (8400816092050863105161271007165261000000, 121847521218344941531732830842425000000),
  (8520762073124101207227989421675385000000, 118022346715071911402539334445248400000),
  (8636817308930995296973183603944814000000, 114066747366776182050060354876231600000),
  (8748853548455067586093958154149592000000, 109985094454700385866986130438215500000),
  (8856746982020618496937269543788996000000, 105781898561106949075226401452730700000),
  (8960378378114225828507202352270681000000, 101461804585055660899442144592097900000),
  (9059633215147414415727476447789494000000, 97029586609910024430259000130435150000),
  (9154401808015086889896443332240734000000, 92490142628329554769046277957472840000),
  (9244579429310167000750952015685685000000, 87848489130716259993627885000963890000),
  (9330066425060993366388646006035309000000, 83109755563327483191643762139065880000),
  (9410768324864361303857221735916447000000, 78279178662577789300112170892154580000),
  (9486595946293839962875668682894940000000, 73362096672497321021322725119250680000),
  (9557465493470287429780378934674900000000, 68363943453034392532200966579986150000),
  (9623298649689757373438671738528676000000, 63290242488194972224125568950093070000),
  (9684022664014126891054600123637366000000, 58146600805612072980370641856099600000),
  (9739570431743808614509772488070606000000, 52938702824770611183621755481054340000),
  (9789880568714775119939794821055139000000, 47672304164325791250315851049567520000),
  (9834897479406716944723159843550208000000, 42353225472673179999548283996762430000),
  (9874571418952325212991576611454561000000, 36987346440711781004314392000867730000),
  (9908858549416891148621757477085151000000, 31580600455182241115538246505301700000),
  (9937720991602398943394248811367779000000, 26138971447538837726527608639079710000),
  (9961126877004383292268931134527358000000, 20668499377038882416485698937531340000),
  (9979050421008594397115954671645538000000, 15175329455193140136959780357471550000),
  (9991472155108438031217733840290540000000, 9666099443627094715588136380038237000),
  (9998381114775248972392321833737049000000, 4154358063410812473207731621875989000)]

/-- n = 95. quadrature_lib.cpp:4501-4595. -/
def b95 : List (Nat × Nat) := [
  (1585161464039902582132501883862372000, 4067821247270582505272020196886297000),
  (8350237416268341924074884891338761000, 9464841889614678813893064406488419000),
  (20513444057882989692421322735789280000, 14859621204090953592195251205381660000),
  (38064324982492977554963021715883670000, 20239016581858799534398458002516220000),
  (60984220469593561141953948663713880000, 25596651649638591400162227593993050000),
  (89248408891871769485145652341745330000, 30926631305166618846558786614556060000),
  (122826332942795441569288127100836700000, 36223162219665998363129519194888440000),
  (161681669889017379421955290625488500000, 41480504372654951190730477743044150000),
  (205772380760452752861664494285786500000, 46692965419381985433703110599765640000),
  (255050759128522589789525389324628600000, 51854903515580484204199222640082590000),
  (309463484007609814318730096370014200000, 56960732295429220196212133257165940000),
  (368951678111401121833310152955190300000, 62004926480580305200907510795849830000),
  (433450971829663263010643363521594200000, 66982027671841427206828718731214730000),
  (502891573018033981295901306100392600000, 71886650168295410417875410684212360000),
  (577198342592797212592289171249483000000, 76713486751441783172960066178183400000),
  (656290875879350476285711032378063600000, 81457314404955216329577928356632940000),
  (740083589641078595790239156764207000000, 86112999953584922066698549293530240000),
  (828485814701993388961663170261865700000, 90675505610225720537985040477314910000),
  (921401894066951730698851895505471500000, 95139894422728531965350619446563900000),
  (1018731286435534056660686056232869000000, 99501335613286056224358254864344070000),
  (1120368674998880218865810747039210000000, 103755109803924509089542334026207900000),
  (1226204081402538038731717423372914000000, 107896614122057006033843348728119900000),
  (1336122984752489408286445153501446000000, 111921367180346959202095212222173100000),
  (1450006445535884470991285086576327000000, 115825013925356958746000967031733600000),
  (1567731234322588953782557225715633000000, 119603330349653050385375966248323800000),
  (1689169965108409868686495319713060000000, 123252228062213099880648424538011700000),
  (1814191233155799864101375697442677000000, 126767758712160064682999302511276200000),
  (1942659757182946519625208657099695000000, 130146118261011357664503052865490600000),
  (2074436525747429553538207482012582000000, 133383651098806771594842379410980000000),
  (2209378947666077980251587963769896000000, 136476853999651113328919092316907700000),
  (2347341006308283553715453162735080000000, 139422379912384571215466889158143700000),
  (2488173417595829783376015136264889000000, 142217041582274313065594186087984900000),
  (2631723791538281112147096165255673000000, 144857814999805057674209196196230800000),
  (2777836797129148297697341596504004000000, 147341842672834411875757321354016300000),
  (2926354330424407420139259062348385000000, 149666436718570561262000590673210600000),
  (3077115685621504945758382767243658000000, 151829081772025333886218361264925100000),
  (3229957728953733470883153717076878000000, 153827437707794573764788838455561800000),
  (3384715075211815553613387919599120000000, 155659342172219991284113019875736500000),
  (3541220266701689632574728282701070000000, 157322812923192010066087149278412100000),
  (3699303954444855452678072010254128000000, 158816049975061401454895009917692200000),
  (3858795081425209481808948294998925000000, 160137437546338476464786665495687800000),
  (4019521067684086107508645226670308000000, 161285545808072071736741744151201600000),
  (4181307997063220325240274057769711000000, 162259132431016296334297297149098300000),
  (4343980805393564319264914467424189000000, 163057143929910771283532668691644400000),
  (4507363469926325712398965741715177000000, 163678716803419661345982933597182000000),
  (4671279199801251007137334590655947000000, 164123178468495933465444421525299000000),
  (4835550627346055306615070021638908000000, 164390047988159741177882291121606800000),
  (5000000000000000000000000000000000000000, 164479036591903389660869931649053200000),
  (5164449372653944693384929978361092000000, 164390047988159741177882291121606800000),
  (5328720800198748992862665409344053000000, 164123178468495933465444421525299000000),
  (5492636530073674287601034258284823000000, 163678716803419661345982933597182000000),
  (5656019194606435680735085532575811000000, 163057143929910771283532668691644400000),
  (5818692002936779674759725942230289000000, 162259132431016296334297297149098300000),
  (5980478932315913892491354773329692000000, 161285545808072071736741744151201600000),
  (6141204918574790518191051705001075000000, 160137437546338476464786665495687800000),
  (6300696045555144547321927989745872000000, 158816049975061401454895009917692200000),
  (6458779733298310367425271717298930000000, 157322812923192010066087149278412100000),
  (6615284924788184446386612080400880000000, 155659342172219991284113019875736500000),
  (6770042271046266529116846282923122000000, 153827437707794573764788838455561800000),
  (6922884314378495054241617232756342000000, 151829081772025333886218361264925100000),
  (7073645669575592579860740937651615000000, 149666436718570561262000590673210600000),
  (7222163202870851702302658403495996000000, 147341842672834411875757321354016300000),
  (7368276208461718887852903834744327000000, 144857814999805057674209196196230800000),
  (7511826582404170216623984863735111000000, 142217041582274313065594186087984900000),
  (7652658993691716446284546837264920000000, 139422379912384571215466889158143700000),
  (7790621052333922019748412036230104000000, 136476853999651113328919092316907700000),
  (7925563474252570446461792517987418000000, 133383651098806771594842379410980000000),
  (8057340242817053480374791342900305000000, 130146118261011357664503052865490600000),
  (8185808766844200135898624302557324000000, 126767758712160064682999302511276200000),
  (8310830034891590131313504680286940000000, 123252228062213099880648424538011700000),
  (8432268765677411046217442774284367000000, 119603330349653050385375966248323800000),
  (8549993554464115529008714913423673000000, 115825013925356958746000967031733600000),
  (8663877015247510591713554846498554000000, 111921367180346959202095212222173100000),
  (8773795918597461961268282576627086000000, 107896614122057006033843348728119900000),
  (8879631325001119781134189252960791000000, 103755109803924509089542334026207900000),
  (8981268713564465943339313943767130000000, 99501335613286056224358254864344070000),
  (9078598105933048269301148104494528000000, 95139894422728531965350619446563900000),
  (9171514185298006611038336829738134000000, 90675505610225720537985040477314910000),
  (9259916410358921404209760843235793000000, 86112999953584922066698549293530240000),
  (9343709124120649523714288967621936000000, 81457314404955216329577928356632940000),
  (9422801657407202787407710828750517000000, 76713486751441783172960066178183400000),
  (9497108426981966018704098693899607000000, 71886650168295410417875410684212360000),
  (9566549028170336736989356636478405000000, 66982027671841427206828718731214730000),
  (9631048321888598878166689847044810000000, 62004926480580305200907510795849830000),
  (9690536515992390185681269903629985000000, 56960732295429220196212133257165940000),
  (9744949240871477410210474610675371000000, 51854903515580484204199222640082590000),
  (9794227619239547247138335505714214000000, 46692965419381985433703110599765640000),
  (9838318330110982620578044709374512000000, 41480504372654951190730477743044150000),
  (9877173667057204558430711872899164000000, 36223162219665998363129519194888440000),
  (9910751591108128230514854347658255000000, 30926631305166618846558786614556060000),
  (9939015779530406438858046051336286000000, 25596651649638591400162227593993050000),
  (9961935675017507022445036978284116000000, 20239016581858799534398458002516220000),
  (9979486555942117010307578677264210000000, 14859621204090953592195251205381660000),
  (9991649762583731658075925115108662000000, 9464841889614678813893064406488419000),
  (9998414838535960097417867498116138000000, 4067821247270582505272020196886297000)]

/-- n = 96. quadrature_lib.cpp:4596-4691. -/
def b96 : List (Nat × Nat) := [
  (1552480583846165861549471078172522000, 3983960327760062147190717484717880000),
  (8178120684091611379252802366403022000, 9269803944734608661679626754469349000),
  (20090785063953546748004575603217140000, 14553659089674732042053089947003170000),
  (37280498381186877140538511491994130000, 19822771692223433368667078837098070000),
  (59729368351881002596186137907744140000, 25071013714637588462350974845154920000),
  (87413682184926612764770840587259220000, 30292727521179808416583710158645090000),
  (120304127074317667736994828790600400000, 35482353955769326345720804060717060000),
  (158365857683678939131703167781744900000, 40634384628493796086912138539279520000),
  (201558542756287303499659870576326400000, 45743356153916933162923013326039420000),
  (249836411077811821219505257780682400000, 50803852675042078787938184769126810000),
  (303148301236223915340713102841923700000, 55810510499192492956066319142810410000),
  (361437716388456545176547636517268000000, 60758023355441598175906763683336500000),
  (424642884395509628970577669247892300000, 65641147834807863185318334512995580000),
  (492696823420738293403836513451565800000, 70454708861574304579308123623183620000),
  (565527412987897919715612833031069300000, 75193605134974690029381376110488080000),
  (643057470453517485631126177534786400000, 79852814512811456903082283957465350000),
  (725204832826992722686065150532153900000, 84427399321225862252387703034310040000),
  (811882443859064392528485916176535600000, 88912511580226304188071132430355070000),
  (902998446310341622305001878877609900000, 93303398137057336925783793110661170000),
  (998456279304295913856019280143361700000, 97595405700725112050426101406023550000),
  (1098154780662833911981977720553411000000, 101783985771666622976226077086357700000),
  (1201988294116762506485147794401892000000, 105864699460956494938369335955018600000),
  (1309846781277999335744171344517514000000, 109833222193721745973781934007811300000),
  (1421615938255161868874279259711876000000, 113685348291646870006739209887451200000),
  (1537177316789142193278771150908787000000, 117416995429631099211179663338063000000),
  (1656408449780419230237213962136129000000, 121024208961823456411336689363385000000),
  (1779182981075164466007938249683492000000, 124503166112418051441910904341664100000),
  (1905370799372657148068153565060686000000, 127850180026746807493985839718000500000),
  (2034838176112139596582221224781209000000, 131061703678362069567289819822316700000),
  (2167447907193014157978749024582687000000, 134134333627958810990283643570783400000),
  (2303059458378212818865987013372197000000, 137064813630146214117105437445456200000),
  (2441529114226661632072451272855729000000, 139850038084241672199092882945112400000),
  (2582710130397018201157971953180524000000, 142487055325426928227997564729028000000),
  (2726452889161284956821619259568461000000, 144973070752776182713393906398407700000),
  (2872605057963497273175903982150010000000, 147305449790839529852181660914292300000),
  (3021011750855456983574998784324179000000, 149481720681641929921940378972000100000),
  (3171515692638431824845522030022634000000, 151499577104137968970443821032504700000),
  (3323957385536872886918371875971857000000, 153356880618345745071144151781021400000),
  (3478175278227518234880351103523983000000, 155051662931569187116248899853163100000),
  (3634005937044754292563639221377176000000, 156582127984306779063921333575315500000),
  (3791284219180799938360340481296862000000, 157946653853635842790103730849821400000),
  (3949843447697163981985764071438521000000, 159143794472055032673768699427661100000),
  (4109515588161906986202986874117542000000, 160172281159963316090694887351055800000),
  (4270131426725515290054463333283368000000, 161031023970151253343335572786162700000),
  (4431520749446670395443959522928360000000, 161719112842879642143874194144716500000),
  (4593512522677872205027643685126236000000, 162235818570321346820063942244229700000),
  (4755935074319751344440208978693625000000, 162580593569344179936027457238891800000),
  (4918616275751985152104327181523808000000, 162753072461815831209807091486428800000),
  (5081383724248014847895672818476193000000, 162753072461815831209807091486428800000),
  (5244064925680248655559791021306376000000, 162580593569344179936027457238891800000),
  (5406487477322127794972356314873764000000, 162235818570321346820063942244229700000),
  (5568479250553329604556040477071640000000, 161719112842879642143874194144716500000),
  (5729868573274484709945536666716632000000, 161031023970151253343335572786162700000),
  (5890484411838093013797013125882458000000, 160172281159963316090694887351055800000),
  (6050156552302836018014235928561479000000, 159143794472055032673768699427661100000),
  (6208715780819200061639659518703139000000, 157946653853635842790103730849821400000),
  (6365994062955245707436360778622824000000, 156582127984306779063921333575315500000),
  (6521824721772481765119648896476017000000, 155051662931569187116248899853163100000),
  (6676042614463127113081628124028143000000, 153356880618345745071144151781021400000),
  (6828484307361568175154477969977366000000, 151499577104137968970443821032504700000),
  (6978988249144543016425001215675821000000, 149481720681641929921940378972000100000),
  (7127394942036502726824096017849990000000, 147305449790839529852181660914292300000),
  (7273547110838715043178380740431539000000, 144973070752776182713393906398407700000),
  (7417289869602981798842028046819476000000, 142487055325426928227997564729028000000),
  (7558470885773338367927548727144271000000, 139850038084241672199092882945112400000),
  (7696940541621787181134012986627803000000, 137064813630146214117105437445456200000),
  (7832552092806985842021250975417313000000, 134134333627958810990283643570783400000),
  (7965161823887860403417778775218791000000, 131061703678362069567289819822316700000),
  (8094629200627342851931846434939314000000, 127850180026746807493985839718000500000),
  (8220817018924835533992061750316508000000, 124503166112418051441910904341664100000),
  (8343591550219580769762786037863871000000, 121024208961823456411336689363385000000),
  (8462822683210857806721228849091213000000, 117416995429631099211179663338063000000),
  (8578384061744838131125720740288125000000, 113685348291646870006739209887451200000),
  (8690153218722000664255828655482486000000, 109833222193721745973781934007811300000),
  (8798011705883237493514852205598108000000, 105864699460956494938369335955018600000),
  (8901845219337166088018022279446589000000, 101783985771666622976226077086357700000),
  (9001543720695704086143980719856638000000, 97595405700725112050426101406023550000),
  (9097001553689658377694998121122391000000, 93303398137057336925783793110661170000),
  (9188117556140935607471514083823465000000, 88912511580226304188071132430355070000),
  (9274795167173007277313934849467847000000, 84427399321225862252387703034310040000),
  (9356942529546482514368873822465214000000, 79852814512811456903082283957465350000),
  (9434472587012102080284387166968931000000, 75193605134974690029381376110488080000),
  (9507303176579261706596163486548434000000, 70454708861574304579308123623183620000),
  (9575357115604490371029422330752108000000, 65641147834807863185318334512995580000),
  (9638562283611543454823452363482732000000, 60758023355441598175906763683336500000),
  (9696851698763776084659286897158077000000, 55810510499192492956066319142810410000),
  (9750163588922188178780494742219317000000, 50803852675042078787938184769126810000),
  (9798441457243712696500340129423673000000, 45743356153916933162923013326039420000),
  (9841634142316321060868296832218255000000, 40634384628493796086912138539279520000),
  (9879695872925682332263005171209400000000, 35482353955769326345720804060717060000),
  (9912586317815073387235229159412740000000, 30292727521179808416583710158645090000),
  (9940270631648118997403813862092256000000, 25071013714637588462350974845154920000),
  (9962719501618813122859461488508006000000, 19822771692223433368667078837098070000),
  (9979909214936046453251995424396782000000, 14553659089674732042053089947003170000),
  (9991821879315908388620747197633597000000, 9269803944734608661679626754469349000),
  (9998447519416153834138450528921827000000, 3983960327760062147190717484717880000)]

/-- n = 97. quadrature_lib.cpp:4692-4788. -/
def b97 : List (Nat × Nat) := [
  (1520800023766375440160557282373237000, 3902666109712806228617861664331347000),
  (8011270697167816333778784417707958000, 9080731991050198047538475396920710000),
  (19681052612557934878440972615679730000, 14257046216065278857097540278722750000),
  (36520626107241953709248536921222940000, 19419226647446472108663261746169580000),
  (58512827490806063410532279162197330000, 24561381310830140654176411210961980000),
  (85634901932358244820381057149050980000, 29678078153941114770916484766686850000),
  (117858718456901175378775845584770400000, 34763980482347027632325654994967200000),
  (155150834825245389499449389838727100000, 39813799989327477977993294318720770000),
  (197472541736063769212567747754581800000, 44822290883489997162825922063022170000),
  (244779906166804023945462904159993400000, 49784252135420224741189267910380470000),
  (297023818209860078141575645765499900000, 54694531795979744769835801002427660000),
  (354150042591904295888699099937732900000, 59548031926653784163681154455414500000),
  (416099275234055559751020002588480300000, 64339713712466933378556759821587550000),
  (482807204949391917925438329036328300000, 69064602609265216355745023792170640000),
  (554204580278498189804857004209436000000, 73717793466184750881799123098171260000),
  (630217281422928923203983438059863100000, 78294455595784602601035034551305050000),
  (710766397216048493697209471499659400000, 82789837776712283145140363053070710000),
  (795768307058566162712425330898066200000, 87199273179039023197027455124891430000),
  (885134767737577791247900799861711500000, 91518184204820704111457995198491300000),
  (978773005041147172605560199300645500000, 95742087237640646676283451742764220000),
  (1076585810074571355847928447751082000000, 99866597295540234440945829865556980000),
  (1178471640179089715489971703441337000000, 103887432582132842489948876138972700000),
  (1284324724348730309784689212315074000000, 107800418930958591392173554908467200000),
  (1394035173036147375268814545472276000000, 111601494138335661893115773131769800000),
  (1507489092233644416816103496943046000000, 115286712180129978981980829984469800000),
  (1624568701711075170877173619783796000000, 118852247308015344105209239768135000000),
  (1745152457287958724451879006495769000000, 122294398020939236452997995330119800000),
  (1869115177012930727435057298399386000000, 125609590907650233678260637066141200000),
  (1996328171119578958115403668276002000000, 128794384356283924476761282925575500000),
  (2126659375623779478363112425318934000000, 131845472127146748785392648554917200000),
  (2259973489423861326720070738929113000000, 134759686784982203368167899342569500000),
  (2396132114761285817263899442051061000000, 137534002987151712800481000134250700000),
  (2534993900896034013773397039781514000000, 140165540624313387634026547816339300000),
  (2676414690847555932963621613003080000000, 142651567810335937591190008208457800000),
  (2820247671048950617808072314363655000000, 144989503718342159360261721601745200000),
  (2966343523759020485578970096133218000000, 147176921259936604321214446399872700000),
  (3114550582073979278495134902672909000000, 149211549604835145172890956666919800000),
  (3264714987377893392590433148242327000000, 151091276538280072672603756240119400000),
  (3416680849068404059694012097337095000000, 152814150653792919306754958846929300000),
  (3570290406391915384131152911355064000000, 154378383378988269121632284748636400000),
  (3725384192220243004874663750847163000000, 155782350832345207288755483269726000000),
  (3881801198598702412224073508483555000000, 157024595509008618122889902084597400000),
  (4039379043893776768821399711240298000000, 158103827793870080214745267501692200000),
  (4197954141366843363086097834704240000000, 159018927300357452224768469968705800000),
  (4357361868998957272651583514238514000000, 159768944033543209726419097649000400000),
  (4517436740390391965491715618906900000000, 160353099376363996746397636566509200000),
  (4678012576557520759890576785710492000000, 160770786897927507678899948742671700000),
  (4838922678448691455444740058741442000000, 161021572983067526673787412127350500000),
  (5000000000000000000000000000000000000000, 161105197282493531630840396437206300000),
  (5161077321551308544555259941258558000000, 161021572983067526673787412127350500000),
  (5321987423442479240109423214289508000000, 160770786897927507678899948742671700000),
  (5482563259609608034508284381093100000000, 160353099376363996746397636566509200000),
  (5642638131001042727348416485761486000000, 159768944033543209726419097649000400000),
  (5802045858633156636913902165295760000000, 159018927300357452224768469968705800000),
  (5960620956106223231178600288759702000000, 158103827793870080214745267501692200000),
  (6118198801401297587775926491516446000000, 157024595509008618122889902084597400000),
  (6274615807779756995125336249152837000000, 155782350832345207288755483269726000000),
  (6429709593608084615868847088644936000000, 154378383378988269121632284748636400000),
  (6583319150931595940305987902662905000000, 152814150653792919306754958846929300000),
  (6735285012622106607409566851757673000000, 151091276538280072672603756240119400000),
  (6885449417926020721504865097327091000000, 149211549604835145172890956666919800000),
  (7033656476240979514421029903866782000000, 147176921259936604321214446399872700000),
  (7179752328951049382191927685636346000000, 144989503718342159360261721601745200000),
  (7323585309152444067036378386996920000000, 142651567810335937591190008208457800000),
  (7465006099103965986226602960218486000000, 140165540624313387634026547816339300000),
  (7603867885238714182736100557948939000000, 137534002987151712800481000134250700000),
  (7740026510576138673279929261070887000000, 134759686784982203368167899342569500000),
  (7873340624376220521636887574681066000000, 131845472127146748785392648554917200000),
  (8003671828880421041884596331723997000000, 128794384356283924476761282925575500000),
  (8130884822987069272564942701600613000000, 125609590907650233678260637066141200000),
  (8254847542712041275548120993504231000000, 122294398020939236452997995330119800000),
  (8375431298288924829122826380216204000000, 118852247308015344105209239768135000000),
  (8492510907766355583183896503056955000000, 115286712180129978981980829984469800000),
  (8605964826963852624731185454527724000000, 111601494138335661893115773131769800000),
  (8715675275651269690215310787684926000000, 107800418930958591392173554908467200000),
  (8821528359820910284510028296558663000000, 103887432582132842489948876138972700000),
  (8923414189925428644152071552248918000000, 99866597295540234440945829865556980000),
  (9021226994958852827394439800699354000000, 95742087237640646676283451742764220000),
  (9114865232262422208752099200138289000000, 91518184204820704111457995198491300000),
  (9204231692941433837287574669101933000000, 87199273179039023197027455124891430000),
  (9289233602783951506302790528500341000000, 82789837776712283145140363053070710000),
  (9369782718577071076796016561940136000000, 78294455595784602601035034551305050000),
  (9445795419721501810195142995790564000000, 73717793466184750881799123098171260000),
  (9517192795050608082074561670963671000000, 69064602609265216355745023792170640000),
  (9583900724765944440248979997411519000000, 64339713712466933378556759821587550000),
  (9645849957408095704111300900062267000000, 59548031926653784163681154455414500000),
  (9702976181790139921858424354234500000000, 54694531795979744769835801002427660000),
  (9755220093833195976054537095840007000000, 49784252135420224741189267910380470000),
  (9802527458263936230787432252245419000000, 44822290883489997162825922063022170000),
  (9844849165174754610500550610161273000000, 39813799989327477977993294318720770000),
  (9882141281543098824621224154415230000000, 34763980482347027632325654994967200000),
  (9914365098067641755179618942850949000000, 29678078153941114770916484766686850000),
  (9941487172509193936589467720837803000000, 24561381310830140654176411210961980000),
  (9963479373892758046290751463078777000000, 19419226647446472108663261746169580000),
  (9980318947387442065121559027384321000000, 14257046216065278857097540278722750000),
  (9991988729302832183666221215582292000000, 9080731991050198047538475396920710000),
  (9998479199976233624559839442717627000000, 3902666109712806228617861664331347000)]

/-- n = 98. quadrature_lib.cpp:4789-4886. -/
def b98 : List (Nat × Nat) := [
  (1490079372545481813525481501466295000, 3823834911371567290196230227615280000),
  (7849474763847731106533996149394201000, 8897385205072643708477179042460829000),
  (19283725015703519685101454440972260000, 13969405678610654353148585894147520000),
  (35783742315466349340599763011391930000, 19027870426761797827575595249052400000),
  (57333055054209158139135045321615230000, 24067111992933854592389073386840660000),
  (83909818531385043573311203679106970000, 29081912732198195563815833697220450000),
  (115487024680569587504652840624389100000, 34067147395826079993860478546476890000),
  (152032564496027638400679913407561800000, 39017736895503774454899900519197770000),
  (193509269985544711447911999540297500000, 43928642336961316013496943550215440000),
  (239874955067992493456139040056074600000, 48794867010870484176739374646443990000),
  (291082459686440894506018768347776900000, 53611460416121585601220238504598270000),
  (347079698303464789377524149786993000000, 58373522885690621437143836403291840000),
  (407809713132159414013931747553040800000, 63076210394609764288907162294180780000),
  (473210732200804320233334868896234400000, 67714739405147325718238031204874820000),
  (543216232255544667840215015706243700000, 72284391691522009887844554008994080000),
  (617755006465779474435424574766287900000, 76780519117488778842490031419571890000),
  (696751236877241234204963827938674300000, 81198548352268478263632524658362120000),
  (780124571546147663570218802638475600000, 85533985515449501311772044642276880000),
  (867790206279760724461073585183109400000, 89782420743853140612214022358511900000),
  (959658970902328243525463741321848700000, 93939532674523432807434830826059710000),
  (1055637419959888666495166333319799000000, 98001092838631653866186322946755610000),
  (1155627927772411014417018789717200000000, 101962969961459572897418902629325600000),
  (1259528787737037746797166753954058000000, 105821134163874284556400792355610900000),
  (1367234315781707595437150813789074000000, 109571661060893252095095612318760100000),
  (1478634957864112881715116257393410000000, 113210735753092165556315213649454500000),
  (1593617401406768396019806086268566000000, 116734656706746373563414702640833800000),
  (1712064690554925474198474019569597000000, 120139839518727494016206133296208600000),
  (1833856345140150690590217926929109000000, 123422820562304980909898081311652000000),
  (1958868483228602332427915334396319000000, 126580260510130486715733014885248800000),
  (2086973947129380201733519202456043000000, 129608947730812244592340901720414000000),
  (2218042432734797067713012335808581000000, 132505801555618196762437565410192700000),
  (2351940622061025618757821707680782000000, 135267875411980641388379575311200600000),
  (2488532318854315700882687877812240000000, 137892359820611969500499736301647400000),
  (2627678587124855779364887232668055000000, 140376585253180693766228492059683200000),
  (2769237892467372757014715233633869000000, 142718024847639428517451952635458800000),
  (2913066246024728329092648139750129000000, 144914296978441710237245308717001800000),
  (3059017350948080681398478706992728000000, 146963167679032460838815807722978900000),
  (3206942751204640173757916466454761000000, 148862552914147381330878579627590300000),
  (3356691982581659205911955550335063000000, 150610520699609494242654907428463400000),
  (3508112725733062114205859480175315000000, 152205293067466291974538247337362700000),
  (3661050961113042931336265355611270000000, 153645247874468349600068030413981800000),
  (3815351125639039245038861098861112000000, 154928920452049673155214327845102600000),
  (3970856270924731148461677260017730000000, 156055005096131322084203136675489600000),
  (4127408222922117160625162987523888000000, 157022356395232807587443060322948000000),
  (4284847742810285624169850071872392000000, 157829990395540264507254537708271100000),
  (4443014688967231910008959558716357000000, 158477085601746258045370396738778900000),
  (4601748179859970058935331861073713000000, 158962983812643150991589191927558700000),
  (4760886757687253385186161559363748000000, 159287190790620053565495944210243300000),
  (4920268552608453003562182162922766000000, 159449376764382336389725052771389100000),
  (5079731447391546996437817837077234000000, 159449376764382336389725052771389100000),
  (5239113242312746614813838440636252000000, 159287190790620053565495944210243300000),
  (5398251820140029941064668138926287000000, 158962983812643150991589191927558700000),
  (5556985311032768089991040441283643000000, 158477085601746258045370396738778900000),
  (5715152257189714375830149928127608000000, 157829990395540264507254537708271100000),
  (5872591777077882839374837012476112000000, 157022356395232807587443060322948000000),
  (6029143729075268851538322739982270000000, 156055005096131322084203136675489600000),
  (6184648874360960754961138901138888000000, 154928920452049673155214327845102600000),
  (6338949038886957068663734644388729000000, 153645247874468349600068030413981800000),
  (6491887274266937885794140519824685000000, 152205293067466291974538247337362700000),
  (6643308017418340794088044449664937000000, 150610520699609494242654907428463400000),
  (6793057248795359826242083533545239000000, 148862552914147381330878579627590300000),
  (6940982649051919318601521293007272000000, 146963167679032460838815807722978900000),
  (7086933753975271670907351860249871000000, 144914296978441710237245308717001800000),
  (7230762107532627242985284766366131000000, 142718024847639428517451952635458800000),
  (7372321412875144220635112767331945000000, 140376585253180693766228492059683200000),
  (7511467681145684299117312122187759000000, 137892359820611969500499736301647400000),
  (7648059377938974381242178292319218000000, 135267875411980641388379575311200600000),
  (7781957567265202932286987664191419000000, 132505801555618196762437565410192700000),
  (7913026052870619798266480797543957000000, 129608947730812244592340901720414000000),
  (8041131516771397667572084665603681000000, 126580260510130486715733014885248800000),
  (8166143654859849309409782073070891000000, 123422820562304980909898081311652000000),
  (8287935309445074525801525980430403000000, 120139839518727494016206133296208600000),
  (8406382598593231603980193913731434000000, 116734656706746373563414702640833800000),
  (8521365042135887118284883742606590000000, 113210735753092165556315213649454500000),
  (8632765684218292404562849186210926000000, 109571661060893252095095612318760100000),
  (8740471212262962253202833246045943000000, 105821134163874284556400792355610900000),
  (8844372072227588985582981210282800000000, 101962969961459572897418902629325600000),
  (8944362580040111333504833666680201000000, 98001092838631653866186322946755610000),
  (9040341029097671756474536258678151000000, 93939532674523432807434830826059710000),
  (9132209793720239275538926414816891000000, 89782420743853140612214022358511900000),
  (9219875428453852336429781197361525000000, 85533985515449501311772044642276880000),
  (9303248763122758765795036172061326000000, 81198548352268478263632524658362120000),
  (9382244993534220525564575425233712000000, 76780519117488778842490031419571890000),
  (9456783767744455332159784984293756000000, 72284391691522009887844554008994080000),
  (9526789267799195679766665131103765000000, 67714739405147325718238031204874820000),
  (9592190286867840585986068252446959000000, 63076210394609764288907162294180780000),
  (9652920301696535210622475850213007000000, 58373522885690621437143836403291840000),
  (9708917540313559105493981231652223000000, 53611460416121585601220238504598270000),
  (9760125044932007506543860959943925000000, 48794867010870484176739374646443990000),
  (9806490730014455288552088000459702000000, 43928642336961316013496943550215440000),
  (9847967435503972361599320086592439000000, 39017736895503774454899900519197770000),
  (9884512975319430412495347159375611000000, 34067147395826079993860478546476890000),
  (9916090181468614956426688796320893000000, 29081912732198195563815833697220450000),
  (9942666944945790841860864954678385000000, 24067111992933854592389073386840660000),
  (9964216257684533650659400236988608000000, 19027870426761797827575595249052400000),
  (9980716274984296480314898545559028000000, 13969405678610654353148585894147520000),
  (9992150525236152268893466003850606000000, 8897385205072643708477179042460829000),
  (9998509920627454518186474518498533000000, 3823834911371567290196230227615280000)]

/-- n = 99. quadrature_lib.cpp:4887-4985. -/
def b99 : List (Nat × Nat) := [
  (1460280239153220682080752898004620000, 3747368233687026816876249729889293000),
  (7692530820793305135593630034763498000, 8719534791096224693183115999548275000),
  (18898306634556957185523690309576780000, 13690379368134390456623381407305270000),
  (35068929334438613351828948541511930000, 18648217436215173745994121076053640000),
  (56188585050631937448290725884581130000, 23587595187604150398437276822086970000),
  (82236294218599935172188989727935410000, 28503498866979634375761967390749860000),
  (113186116246470277151029845583338400000, 33391004302875490825920314446500570000),
  (149007209628548922596350560558914200000, 38245231396676289676952336453774230000),
  (189663871795490286304643357002002200000, 43061338077394444958664220234440190000),
  (235115577733132487121659821680041700000, 47834522056630681784494331707930010000),
  (285317021557602948526702550083714000000, 52560024577623727028744920934314970000),
  (340218162192515178191748211788288900000, 57233134757491268805662733313997280000),
  (399764273497498906424348590638868500000, 61849194110875810517167079446924570000),
  (463895998947132158810598123793825100000, 66403601113286417399769575336367660000),
  (532549410867928924988776436112064800000, 70891815747897230330714775795463850000),
  (605656074202430748649613834188192400000, 75309364009951166564764869825730520000),
  (683143114750414777825508110201138900000, 79651842354804248555188922066223170000),
  (764933291826129263504300155160636400000, 83914922080693535447513405123686550000),
  (850945075262847174854751914166880300000, 88094353639621902533786272103815980000),
  (941092726690054326584938085373710000000, 92185970870892496354927259519913670000),
  (1035286385003455530457502486127609000000, 96185695152435923993369115555365090000),
  (1133432155943319274007813062940014000000, 100089539465432831039738396465342600000),
  (1235432205692309408727459263072676000000, 103893612367971056037126149535443800000),
  (1341184858399782389095907858437522000000, 107594121873651119091233300492314900000),
  (1450584697535515708967483778011820000000, 111187379231196857921778870400440200000),
  (1563522670971954512496868962588145000000, 114669802601255276420416234514341800000),
  (1679886199690307712208288384975342000000, 118037920626689470233089564446381200000),
  (1799559290002187374485897867857265000000, 121288375892785391158202013495368400000),
  (1922422649174964114746464091286943000000, 124417928273909732229936415157548900000),
  (2048353804345607178916749935965304000000, 127423458163273773252911746213830200000),
  (2177227224604492246284527977512032000000, 130301969582577412704643378457505400000),
  (2308914446127494837275655120421950000000, 133050593168429256508960868222845400000),
  (2443284200231644928904315921219040000000, 135666589032562754631966329383583000000),
  (2580202544226701499113716401109219000000, 138147349492995061610380540705606300000),
  (2719532994932216813535197243223306000000, 140490401673404556329671252647274400000),
  (2861136664727001891224161983822462000000, 142693409968134748633184660521988900000),
  (3004872399995379238103411046931038000000, 144754178370366552018692822881935300000),
  (3150596921832219031356665371693443000000, 146670652661137517382166544985911700000),
  (3298164968866502784793045050381221000000, 148440922457025492240088178034198100000),
  (3447429442061046318380043918090945000000, 150063223114455172359514128470987300000),
  (3598241551344043664111675778553420000000, 151535937488729019898063528192370600000),
  (3750450963926267303205828026524482000000, 152857597546028899960910497095820000000),
  (3903905954156079648052780849472377000000, 154026885826781397495896221351471300000),
  (4058453554762877617891825265346192000000, 155042636758927976791674593295170600000),
  (4213939709338208028081002827978578000000, 155903837819790791851672070657695500000),
  (4370209425902557691408796235223153000000, 156609630545375900640873464004824000000),
  (4527106931404739840617807247589304000000, 157159311386107730807606375934203100000),
  (4684475826999868798967460358124799000000, 157552332408141738566189745699770100000),
  (4842159243951138673982709367663695000000, 157788301839556144290460441153075300000),
  (5000000000000000000000000000000000000000, 157866984460878265256870846585341200000),
  (5157840756048861326017290632336305000000, 157788301839556144290460441153075300000),
  (5315524173000131201032539641875201000000, 157552332408141738566189745699770100000),
  (5472893068595260159382192752410696000000, 157159311386107730807606375934203100000),
  (5629790574097442308591203764776847000000, 156609630545375900640873464004824000000),
  (5786060290661791971918997172021422000000, 155903837819790791851672070657695500000),
  (5941546445237122382108174734653808000000, 155042636758927976791674593295170600000),
  (6096094045843920351947219150527624000000, 154026885826781397495896221351471300000),
  (6249549036073732696794171973475518000000, 152857597546028899960910497095820000000),
  (6401758448655956335888324221446580000000, 151535937488729019898063528192370600000),
  (6552570557938953681619956081909055000000, 150063223114455172359514128470987300000),
  (6701835031133497215206954949618779000000, 148440922457025492240088178034198100000),
  (6849403078167780968643334628306557000000, 146670652661137517382166544985911700000),
  (6995127600004620761896588953068962000000, 144754178370366552018692822881935300000),
  (7138863335272998108775838016177538000000, 142693409968134748633184660521988900000),
  (7280467005067783186464802756776694000000, 140490401673404556329671252647274400000),
  (7419797455773298500886283598890781000000, 138147349492995061610380540705606300000),
  (7556715799768355071095684078780960000000, 135666589032562754631966329383583000000),
  (7691085553872505162724344879578051000000, 133050593168429256508960868222845400000),
  (7822772775395507753715472022487968000000, 130301969582577412704643378457505400000),
  (7951646195654392821083250064034696000000, 127423458163273773252911746213830200000),
  (8077577350825035885253535908713057000000, 124417928273909732229936415157548900000),
  (8200440709997812625514102132142735000000, 121288375892785391158202013495368400000),
  (8320113800309692287791711615024658000000, 118037920626689470233089564446381200000),
  (8436477329028045487503131037411856000000, 114669802601255276420416234514341800000),
  (8549415302464484291032516221988181000000, 111187379231196857921778870400440200000),
  (8658815141600217610904092141562478000000, 107594121873651119091233300492314900000),
  (8764567794307690591272540736927323000000, 103893612367971056037126149535443800000),
  (8866567844056680725992186937059986000000, 100089539465432831039738396465342600000),
  (8964713614996544469542497513872390000000, 96185695152435923993369115555365090000),
  (9058907273309945673415061914626290000000, 92185970870892496354927259519913670000),
  (9149054924737152825145248085833120000000, 88094353639621902533786272103815980000),
  (9235066708173870736495699844839364000000, 83914922080693535447513405123686550000),
  (9316856885249585222174491889798862000000, 79651842354804248555188922066223170000),
  (9394343925797569251350386165811808000000, 75309364009951166564764869825730520000),
  (9467450589132071075011223563887935000000, 70891815747897230330714775795463850000),
  (9536104001052867841189401876206174000000, 66403601113286417399769575336367660000),
  (9600235726502501093575651409361132000000, 61849194110875810517167079446924570000),
  (9659781837807484821808251788211711000000, 57233134757491268805662733313997280000),
  (9714682978442397051473297449916286000000, 52560024577623727028744920934314970000),
  (9764884422266867512878340178319958000000, 47834522056630681784494331707930010000),
  (9810336128204509713695356642997998000000, 43061338077394444958664220234440190000),
  (9850992790371451077403649439441086000000, 38245231396676289676952336453774230000),
  (9886813883753529722848970154416662000000, 33391004302875490825920314446500570000),
  (9917763705781400064827811010272065000000, 28503498866979634375761967390749860000),
  (9943811414949368062551709274115419000000, 23587595187604150398437276822086970000),
  (9964931070665561386648171051458489000000, 18648217436215173745994121076053640000),
  (9981101693365443042814476309690423000000, 13690379368134390456623381407305270000),
  (9992307469179206694864406369965237000000, 8719534791096224693183115999548275000),
  (9998539719760846779317919247101995000000, 3747368233687026816876249729889293000)]

/-- n = 100. quadrature_lib.cpp:4986-5085. -/
def b100 : List (Nat × Nat) := [
  (1431366132793831608857653288496481000, 3673172452528358652031603291651627000),
  (7540246802020907999183204068254366000, 8546963267590526197646791857456139000),
  (18524326334374254069341338794344630000, 13419626857767412097197952145005100000),
  (34375314812782701739950535756082610000, 18279806006631875911712293637626480000),
  (55078023785041259977906270961316640000, 23122250317110596755478945414892300000),
  (80612296469714922519499222444959070000, 27942140019327575786059731742195730000),
  (110953207565408557231094557853990500000, 32734742254226613820760516657476210000),
  (146071121181468340345510710512473000000, 37495366277323557894143720081988700000),
  (185931728720922363531703369849168000000, 42219357348344857013104174511505240000),
  (230496085372541285753315345528211900000, 46902098268472289757091188304060350000),
  (279720649318720110186126467923906500000, 51539012874344847928910508639176820000),
  (333557324784602270378331659345687700000, 56125570115929885586107866831667830000),
  (391953509273330236665243357590062600000, 60657288314897487038723962243740740000),
  (454852145087351547664368311054269500000, 65129739464857711427792918794508720000),
  (522191775146365066507394887848861400000, 69538553518593863439770745540022920000),
  (593906603074907922133415872860972300000, 73879422637206508844399937601770860000),
  (669926557514176882946300151618785300000, 78148105387730013619684329768959820000),
  (750177360602043578533187042899476800000, 82340430880726063215524900441054130000),
  (834580600557995882285420830776221800000, 86452302841617912196720991833708330000),
  (923053808304118728030056206753710200000, 90479703610640583321953757102464940000),
  (1015510538048427618052135589083770000000, 94418698066874522764705829407716110000),
  (1111860451752522621862243065827549000000, 98265437472176529326907351227220080000),
  (1212009407401464119821660177807996000000, 102016163231047163834194258287918900000),
  (1315859550989896472437861425899495000000, 105667210562638207713361502204848100000),
  (1423309412134717767700164386478170000000, 109215012081236931569768706521990000000),
  (1534254003220990170256760291622813000000, 112656101281681363508984854658369800000),
  (1648584921984294920987064928383867000000, 115987115926270608112444270913636400000),
  (1766190457429353600836848477706848000000, 119204801329841029812802059511417000000),
  (1886955698981461141979045774138439000000, 122306013539785263599875116748864200000),
  (2010762648764106393675967274253297000000, 125287722407897948518821128104616400000),
  (2137490336893094043415647782371373000000, 128147014551040580378210049310754500000),
  (2267014939674529162660028714091251000000, 130881096197728381711543708786509500000),
  (2399209900591184716765921252723957000000, 133487295917854813301923320931682000000),
  (2533946053959045332153456032753330000000, 135963067232884400682457839010853600000),
  (2671091751133209788753916883021227000000, 138305991103961941471020779352132400000),
  (2810512989139842434455109781889020000000, 140513778295505866588241650934973000000),
  (2952073541608492287355657999714212000000, 142584271611975489954683814322289500000),
  (3095635091876850216183187255652063000000, 144515448005626015674381140672576400000),
  (3241057368137891395138280852255147000000, 146305420553191383100595117478204700000),
  (3388198280497354241387617088008373000000, 147952440299563212558772553394182600000),
  (3536914059807640176312220558822528000000, 149454897966664154584184033342979200000),
  (3687059398142482604155353318725089000000, 150811325525845724595343408052395700000),
  (3838487590775130151752450183960179000000, 152020397632274100082539299094125700000),
  (3991050679521320013819755702348018000000, 153080932919902242482297216310265900000),
  (4144599597306983625562338126464551000000, 153991895155762952138569515152798900000),
  (4298984313819430133962426976587973000000, 154752394252454941170317317353739900000),
  (4454053982099694424982869967103076000000, 155361687137832582939050851214590100000),
  (4609657085932816816525913143992237000000, 155819178481049533919091606085933200000),
  (4765641587892041841925380435330759000000, 156124421274246788661882493240490400000),
  (4921855077892284585638916500012853000000, 156277117269316784738212371930990200000),
  (5078144922107715414361083499987147000000, 156277117269316784738212371930990200000),
  (5234358412107958158074619564669241000000, 156124421274246788661882493240490400000),
  (5390342914067183183474086856007763000000, 155819178481049533919091606085933200000),
  (5545946017900305575017130032896924000000, 155361687137832582939050851214590100000),
  (5701015686180569866037573023412028000000, 154752394252454941170317317353739900000),
  (5855400402693016374437661873535449000000, 153991895155762952138569515152798900000),
  (6008949320478679986180244297651983000000, 153080932919902242482297216310265900000),
  (6161512409224869848247549816039821000000, 152020397632274100082539299094125700000),
  (6312940601857517395844646681274910000000, 150811325525845724595343408052395700000),
  (6463085940192359823687779441177472000000, 149454897966664154584184033342979200000),
  (6611801719502645758612382911991627000000, 147952440299563212558772553394182600000),
  (6758942631862108604861719147744852000000, 146305420553191383100595117478204700000),
  (6904364908123149783816812744347937000000, 144515448005626015674381140672576400000),
  (7047926458391507712644342000285788000000, 142584271611975489954683814322289500000),
  (7189487010860157565544890218110980000000, 140513778295505866588241650934973000000),
  (7328908248866790211246083116978773000000, 138305991103961941471020779352132400000),
  (7466053946040954667846543967246669000000, 135963067232884400682457839010853600000),
  (7600790099408815283234078747276043000000, 133487295917854813301923320931682000000),
  (7732985060325470837339971285908749000000, 130881096197728381711543708786509500000),
  (7862509663106905956584352217628627000000, 128147014551040580378210049310754500000),
  (7989237351235893606324032725746703000000, 125287722407897948518821128104616400000),
  (8113044301018538858020954225861562000000, 122306013539785263599875116748864200000),
  (8233809542570646399163151522293153000000, 119204801329841029812802059511417000000),
  (8351415078015705079012935071616134000000, 115987115926270608112444270913636400000),
  (8465745996779009829743239708377187000000, 112656101281681363508984854658369800000),
  (8576690587865282232299835613521830000000, 109215012081236931569768706521990000000),
  (8684140449010103527562138574100505000000, 105667210562638207713361502204848100000),
  (8787990592598535880178339822192003000000, 102016163231047163834194258287918900000),
  (8888139548247477378137756934172450000000, 98265437472176529326907351227220080000),
  (8984489461951572381947864410916229000000, 94418698066874522764705829407716110000),
  (9076946191695881271969943793246290000000, 90479703610640583321953757102464940000),
  (9165419399442004117714579169223778000000, 86452302841617912196720991833708330000),
  (9249822639397956421466812957100523000000, 82340430880726063215524900441054130000),
  (9330073442485823117053699848381215000000, 78148105387730013619684329768959820000),
  (9406093396925092077866584127139028000000, 73879422637206508844399937601770860000),
  (9477808224853634933492605112151139000000, 69538553518593863439770745540022920000),
  (9545147854912648452335631688945730000000, 65129739464857711427792918794508720000),
  (9608046490726669763334756642409937000000, 60657288314897487038723962243740740000),
  (9666442675215397729621668340654312000000, 56125570115929885586107866831667830000),
  (9720279350681279889813873532076093000000, 51539012874344847928910508639176820000),
  (9769503914627458714246684654471788000000, 46902098268472289757091188304060350000),
  (9814068271279077636468296630150832000000, 42219357348344857013104174511505240000),
  (9853928878818531659654489289487527000000, 37495366277323557894143720081988700000),
  (9889046792434591442768905442146009000000, 32734742254226613820760516657476210000),
  (9919387703530285077480500777555040000000, 27942140019327575786059731742195730000),
  (9944921976214958740022093729038683000000, 23122250317110596755478945414892300000),
  (9965624685187217298260049464243917000000, 18279806006631875911712293637626480000),
  (9981475673665625745930658661205655000000, 13419626857767412097197952145005100000),
  (9992459753197979092000816795931746000000, 8546963267590526197646791857456139000),
  (9998568633867206168391142346711503000000, 3673172452528358652031603291651627000)]

/-- Blocks 87..100. -/
def blocks3 : List (List (Nat × Nat)) := [b87, b88, b89, b90, b91, b92, b93, b94, b95, b96, b97, b98, b99, b100]

end Qugar.GaussTable
