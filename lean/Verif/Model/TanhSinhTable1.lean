/-
GENERATED (see DESIGN.md) from cpp/qugar/quadrature_lib.cpp: rows of `TanhSinh::get_quad_data` for n = 51..70 points.
Every decimal literal of the source is written as an integer multiple of 10^(-66) (exactly, no rounding); the
rounding of the literals to `double` is not modelled.
-/
namespace Qugar.TanhSinhTable

/-- n = 51. quadrature_lib.cpp:6372-6422. -/
def b51 : List (Nat × Nat) := [
  (990806474731308254937729030392502700000000000000, 5395344886140545514202942779461875000000000000000),
  (163309671377937330839206391022719200000000000000000, 780449267967774877503997241326348300000000000000000),
  (14414964861765606496308077765562110000000000000000000, 60465034878207713791523689381168840000000000000000000),
  (735906896810884673602417838979829700000000000000000000, 2709839962949430804384991894767646000000000000000000000),
  (23247885612178541166598960387725140000000000000000000000, 75167107687145072274823283733772720000000000000000000000),
  (482234067706972986037179355207968700000000000000000000000, 1369453286452351961829858264181775000000000000000000000000),
  (6919427050771823365729192817614757000000000000000000000000, 17264806589280818682856989396711930000000000000000000000000),
  (71894270396758451753818625495062550000000000000000000000000, 157685526147555847591713360149639000000000000000000000000000),
  (563113356649136454276028706521680700000000000000000000000000, 1086332629379663294466113849945673000000000000000000000000000),
  (3444539828187623888737570503573299000000000000000000000000000, 5849347047528253276947260345138249000000000000000000000000000),
  (16974992300646434140222260207946060000000000000000000000000000, 25399786440486886749105272363734120000000000000000000000000000),
  (69265839321840811262272867341530770000000000000000000000000000, 91439392376771243308900823544581250000000000000000000000000000),
  (239727399762192611745738947949098400000000000000000000000000000, 279641509844407779195422306921998800000000000000000000000000000),
  (718765580993118559815961014865808900000000000000000000000000000, 742228847828797975576960749707163700000000000000000000000000000),
  (1901743440817295401727134821249898000000000000000000000000000000, 1742004418033750418704842838341727000000000000000000000000000000),
  (4511943433686392326708561375378476000000000000000000000000000000, 3673572996009236260901855311352951000000000000000000000000000000),
  (9731173866129367415051544873745505000000000000000000000000000000, 7054476931080886483487114188560049000000000000000000000000000000),
  (19299348241108857416249746794241970000000000000000000000000000000, 12469358455287424206385188930665460000000000000000000000000000000),
  (35528790773999287917051210118684390000000000000000000000000000000, 20453447986925873642546796081449150000000000000000000000000000000),
  (61169129173489379948928927275097670000000000000000000000000000000, 31310851324629587158542832352109800000000000000000000000000000000),
  (99064061382375747965986116245330060000000000000000000000000000000, 44885988341447467981855279694191910000000000000000000000000000000),
  (151579003655206258733343351270644100000000000000000000000000000000, 60348178580278144546451362153996110000000000000000000000000000000),
  (219863624127800585726004722729629200000000000000000000000000000000, 76098192456918259893881056943237680000000000000000000000000000000),
  (303135637290036481013265107547580600000000000000000000000000000000, 89922998289587455239754126933935800000000000000000000000000000000),
  (398274366301066580981336892085835500000000000000000000000000000000, 99459744896596542210140579364011910000000000000000000000000000000),
  (500000000000000000000000000000000000000000000000000000000000000000, 102870727418627556674686723145568700000000000000000000000000000000),
  (601725633698933419018663107914164600000000000000000000000000000000, 99459744896596542210140579364011910000000000000000000000000000000),
  (696864362709963518986734892452419300000000000000000000000000000000, 89922998289587455239754126933935800000000000000000000000000000000),
  (780136375872199414273995277270370900000000000000000000000000000000, 76098192456918259893881056943237680000000000000000000000000000000),
  (848420996344793741266656648729355900000000000000000000000000000000, 60348178580278144546451362153996110000000000000000000000000000000),
  (900935938617624252034013883754669900000000000000000000000000000000, 44885988341447467981855279694191880000000000000000000000000000000),
  (938830870826510620051071072724902300000000000000000000000000000000, 31310851324629587158542832352109800000000000000000000000000000000),
  (964471209226000712082948789881315700000000000000000000000000000000, 20453447986925873642546796081449150000000000000000000000000000000),
  (980700651758891142583750253205758000000000000000000000000000000000, 12469358455287424206385188930665460000000000000000000000000000000),
  (990268826133870632584948455126254400000000000000000000000000000000, 7054476931080886483487114188560049000000000000000000000000000000),
  (995488056566313607673291438624621600000000000000000000000000000000, 3673572996009236260901855311352951000000000000000000000000000000),
  (998098256559182704598272865178750100000000000000000000000000000000, 1742004418033750418704842838341727000000000000000000000000000000),
  (999281234419006881440184038985134200000000000000000000000000000000, 742228847828797975576960749707163700000000000000000000000000000),
  (999760272600237807388254261052050900000000000000000000000000000000, 279641509844407779195422306921998800000000000000000000000000000),
  (999930734160678159188737727132658500000000000000000000000000000000, 91439392376771243308900823544581270000000000000000000000000000),
  (999983025007699353565859777739792000000000000000000000000000000000, 25399786440486886749105272363734120000000000000000000000000000),
  (999996555460171812376111262429496400000000000000000000000000000000, 5849347047528253276947260345138249000000000000000000000000000),
  (999999436886643350863545723971293400000000000000000000000000000000, 1086332629379663294466113849945673000000000000000000000000000),
  (999999928105729603241548246181374500000000000000000000000000000000, 157685526147555847591713360149639000000000000000000000000000),
  (999999993080572949228176634270807200000000000000000000000000000000, 17264806589280818682856989396711930000000000000000000000000),
  (999999999517765932293027013962820700000000000000000000000000000000, 1369453286452351961829858264181775000000000000000000000000),
  (999999999976752114387821458833401100000000000000000000000000000000, 75167107687145072274823283733772720000000000000000000000),
  (999999999999264093103189115326397400000000000000000000000000000000, 2709839962949430804384991894767646000000000000000000000),
  (999999999999985585035138234393503700000000000000000000000000000000, 60465034878207713791523689381168850000000000000000000),
  (999999999999999836690328622062669200000000000000000000000000000000, 780449267967774877503997241326348300000000000000000),
  (999999999999999999009193525268691700000000000000000000000000000000, 5395344886140545514202942779461875000000000000000)]

/-- n = 52. quadrature_lib.cpp:6423-6474. -/
def b52 : List (Nat × Nat) := [
  (502176168339809745262121297068112600000000000000, 2738125045773192170369577438486912000000000000000),
  (83724581092507428394870454903444270000000000000000, 401405063408715887736770701400911600000000000000000),
  (7529125867781293695505715818469146000000000000000000, 31743813857109107527390988827679940000000000000000000),
  (393653627987864609023650541322537500000000000000000000, 1459757537233999710631915954468288000000000000000000000),
  (12782562324412276618634626371426970000000000000000000000, 41698768169507848932248246246102790000000000000000000000),
  (273188012160007810848175007974097000000000000000000000000, 784184208117839215304004098166118600000000000000000000000),
  (4044102181677955156603581992191461000000000000000000000000, 10218208571896458190809746765414920000000000000000000000000),
  (43372702921795825945575881842287980000000000000000000000000, 96505595171434544134749308602020400000000000000000000000000),
  (350612726131509429655811338080772100000000000000000000000000, 687366403058606252893466124097778400000000000000000000000000),
  (2212027951579309569995086261050876000000000000000000000000000, 3823719876242102829950068057242329000000000000000000000000000),
  (11231640484161493415004594099269630000000000000000000000000000, 17134451932555233613756060142934090000000000000000000000000000),
  (47156818732014581916782010775025200000000000000000000000000000, 63563044584448862742272424400866760000000000000000000000000000),
  (167672051129649031348900653856024300000000000000000000000000000, 199974507701755141210720079424254900000000000000000000000000000),
  (515605692960242262095534919644662200000000000000000000000000000, 545036843988892793520653998119689700000000000000000000000000000),
  (1396756220341318220773758568454151000000000000000000000000000000, 1311168096327479616641721662347481000000000000000000000000000000),
  (3387206785292088273182714852085899000000000000000000000000000000, 2829281560443390867711463242576672000000000000000000000000000000),
  (7455633907760558217787587700177074000000000000000000000000000000, 5551419199225410793499436630461974000000000000000000000000000000),
  (15070735960521678009609386218975200000000000000000000000000000000, 10015884405271847550235131528704190000000000000000000000000000000),
  (28249274433399158003880023017690480000000000000000000000000000000, 16761375926928120652842518844287910000000000000000000000000000000),
  (49489017519299469996783630325064080000000000000000000000000000000, 26182164730730933213498203571831580000000000000000000000000000000),
  (81529221813808363412979856319872940000000000000000000000000000000, 38331129742778273230161924721573980000000000000000000000000000000),
  (126901882705610395457919446131624800000000000000000000000000000000, 52707873180392044495484722857936710000000000000000000000000000000),
  (187295329925728948834524983219641800000000000000000000000000000000, 68112299272434187315297443857406670000000000000000000000000000000),
  (262850790172135346325807864114706400000000000000000000000000000000, 82676292277277912797479654505081480000000000000000000000000000000),
  (351620657386205494687459979171898600000000000000000000000000000000, 94164324633368908077546182046109300000000000000000000000000000000),
  (449461480719670133458846726513916500000000000000000000000000000000, 100526459489155913536802397332866100000000000000000000000000000000),
  (550538519280329866541153273486083700000000000000000000000000000000, 100526459489155913536802397332866100000000000000000000000000000000),
  (648379342613794505312540020828101400000000000000000000000000000000, 94164324633368908077546182046109300000000000000000000000000000000),
  (737149209827864653674192135885293600000000000000000000000000000000, 82676292277277912797479654505081480000000000000000000000000000000),
  (812704670074271051165475016780358200000000000000000000000000000000, 68112299272434187315297443857406660000000000000000000000000000000),
  (873098117294389604542080553868375100000000000000000000000000000000, 52707873180392044495484722857936710000000000000000000000000000000),
  (918470778186191636587020143680127100000000000000000000000000000000, 38331129742778273230161924721573980000000000000000000000000000000),
  (950510982480700530003216369674935900000000000000000000000000000000, 26182164730730933213498203571831580000000000000000000000000000000),
  (971750725566600841996119976982309500000000000000000000000000000000, 16761375926928120652842518844287910000000000000000000000000000000),
  (984929264039478321990390613781024800000000000000000000000000000000, 10015884405271847550235131528704190000000000000000000000000000000),
  (992544366092239441782212412299822900000000000000000000000000000000, 5551419199225410793499436630461974000000000000000000000000000000),
  (996612793214707911726817285147914100000000000000000000000000000000, 2829281560443390867711463242576674000000000000000000000000000000),
  (998603243779658681779226241431545900000000000000000000000000000000, 1311168096327479616641721662347481000000000000000000000000000000),
  (999484394307039757737904465080355400000000000000000000000000000000, 545036843988892793520653998119689700000000000000000000000000000),
  (999832327948870350968651099346143900000000000000000000000000000000, 199974507701755141210720079424254900000000000000000000000000000),
  (999952843181267985418083217989225000000000000000000000000000000000, 63563044584448862742272424400866760000000000000000000000000000),
  (999988768359515838506584995405900800000000000000000000000000000000, 17134451932555233613756060142934090000000000000000000000000000),
  (999997787972048420690430004913738900000000000000000000000000000000, 3823719876242102829950068057242329000000000000000000000000000),
  (999999649387273868490570344188662000000000000000000000000000000000, 687366403058606252893466124097778400000000000000000000000000),
  (999999956627297078204174054424118200000000000000000000000000000000, 96505595171434544134749308602020400000000000000000000000000),
  (999999995955897818322044843396418100000000000000000000000000000000, 10218208571896458190809746765414920000000000000000000000000),
  (999999999726811987839992189151825000000000000000000000000000000000, 784184208117839215304004098166118600000000000000000000000),
  (999999999987217437675587723381365400000000000000000000000000000000, 41698768169507848932248246246102790000000000000000000000),
  (999999999999606346372012135390976300000000000000000000000000000000, 1459757537233999710631915954468288000000000000000000000),
  (999999999999992470874132218706304400000000000000000000000000000000, 31743813857109107527390988827679940000000000000000000),
  (999999999999999916275418907492571700000000000000000000000000000000, 401405063408715887736770701400911400000000000000000),
  (999999999999999999497823831660190200000000000000000000000000000000, 2738125045773192170369577438486912000000000000000)]

/-- n = 53. quadrature_lib.cpp:6475-6527. -/
def b53 : List (Nat × Nat) := [
  (255109271039123757042955749279654800000000000000, 1392744081123005797318706059380961000000000000000),
  (43007608372431790220602827196662260000000000000000, 206836348942648814806092067674962100000000000000000),
  (3938201497883421714314859736811327000000000000000000, 16686480010327204668632199144683500000000000000000000),
  (210744450530873882904820103868220900000000000000000000, 786811982765871839446908752717307800000000000000000000),
  (7029323797995999977138044890448664000000000000000000000, 23129021245949454485047799185439710000000000000000000000),
  (154681636802153716512835254967189400000000000000000000000, 448658053779559221061949934039774500000000000000000000000),
  (2360885527252091052854423193061260000000000000000000000000, 6038354682108007525281242227545017000000000000000000000000),
  (26121125474512310641253015022322640000000000000000000000000, 58935211095018951276014467147700680000000000000000000000000),
  (217819392217922728177216107828602500000000000000000000000000, 433750607100598725991207152051488200000000000000000000000000),
  (1416793263985274932278185897161484000000000000000000000000000, 2491692216684986412488473549344232000000000000000000000000000),
  (7409528774032519516460181365474889000000000000000000000000000, 11518213051317952721278825699860680000000000000000000000000000),
  (32002158156112420299955982144510500000000000000000000000000000, 44018837670178570771275494612953450000000000000000000000000000),
  (116881333416539497829271989456655600000000000000000000000000000, 142442131100063170424073388858692800000000000000000000000000000),
  (368598630123663135921108427843849400000000000000000000000000000, 398627033442265533071940351371308700000000000000000000000000000),
  (1022310925227293873883010875911501000000000000000000000000000000, 982885927226175097911410678023734000000000000000000000000000000),
  (2534042763903724359484848667072232000000000000000000000000000000, 2170115896295930115370257081277515000000000000000000000000000000),
  (5692407965483842398752522316512528000000000000000000000000000000, 4350317365281077074564755793080837000000000000000000000000000000),
  (11727273352616053713698768651677610000000000000000000000000000000, 8009684367912210076757463030607581000000000000000000000000000000),
  (22379367846012361020936076590441820000000000000000000000000000000, 13669449401126939745645656533743270000000000000000000000000000000),
  (39883425129206218103675299560279560000000000000000000000000000000, 21773033864487836763933819548355580000000000000000000000000000000),
  (66811898011797081028504651077597060000000000000000000000000000000, 32521327921624833280085896755683330000000000000000000000000000000),
  (105735491126322400719161897886796800000000000000000000000000000000, 45677108654465037518813056159466820000000000000000000000000000000),
  (158694322394373302106480476566576200000000000000000000000000000000, 60394562653050130412664254766835490000000000000000000000000000000),
  (226548576651743445679631591192388000000000000000000000000000000000, 75166161103611888656249201268106600000000000000000000000000000000),
  (308376878654950738946641135070204400000000000000000000000000000000, 87984900200998903109699795254863580000000000000000000000000000000),
  (401164556061683935048270318194613500000000000000000000000000000000, 96758699165224565317767600954432750000000000000000000000000000000),
  (500000000000000000000000000000000000000000000000000000000000000000, 99884312748900606348146169551271190000000000000000000000000000000),
  (598835443938316064951729681805386500000000000000000000000000000000, 96758699165224565317767600954432750000000000000000000000000000000),
  (691623121345049261053358864929795700000000000000000000000000000000, 87984900200998903109699795254863580000000000000000000000000000000),
  (773451423348256554320368408807612000000000000000000000000000000000, 75166161103611888656249201268106600000000000000000000000000000000),
  (841305677605626697893519523433423800000000000000000000000000000000, 60394562653050130412664254766835490000000000000000000000000000000),
  (894264508873677599280838102113203200000000000000000000000000000000, 45677108654465037518813056159466840000000000000000000000000000000),
  (933188101988202918971495348922403000000000000000000000000000000000, 32521327921624833280085896755683320000000000000000000000000000000),
  (960116574870793781896324700439720500000000000000000000000000000000, 21773033864487836763933819548355580000000000000000000000000000000),
  (977620632153987638979063923409558100000000000000000000000000000000, 13669449401126939745645656533743270000000000000000000000000000000),
  (988272726647383946286301231348322500000000000000000000000000000000, 8009684367912210076757463030607581000000000000000000000000000000),
  (994307592034516157601247477683487500000000000000000000000000000000, 4350317365281077074564755793080837000000000000000000000000000000),
  (997465957236096275640515151332927800000000000000000000000000000000, 2170115896295930115370257081277515000000000000000000000000000000),
  (998977689074772706126116989124088400000000000000000000000000000000, 982885927226175097911410678023733800000000000000000000000000000),
  (999631401369876336864078891572156100000000000000000000000000000000, 398627033442265533071940351371308700000000000000000000000000000),
  (999883118666583460502170728010543400000000000000000000000000000000, 142442131100063170424073388858692800000000000000000000000000000),
  (999967997841843887579700044017855400000000000000000000000000000000, 44018837670178570771275494612953380000000000000000000000000000),
  (999992590471225967480483539818634500000000000000000000000000000000, 11518213051317952721278825699860690000000000000000000000000000),
  (999998583206736014725067721814102800000000000000000000000000000000, 2491692216684986412488473549344232000000000000000000000000000),
  (999999782180607782077271822783892200000000000000000000000000000000, 433750607100598725991207152051488200000000000000000000000000),
  (999999973878874525487689358746984900000000000000000000000000000000, 58935211095018951276014467147700680000000000000000000000000),
  (999999997639114472747908947145576800000000000000000000000000000000, 6038354682108007525281242227545034000000000000000000000000),
  (999999999845318363197846283487164700000000000000000000000000000000, 448658053779559221061949934039774500000000000000000000000),
  (999999999992970676202004000022862000000000000000000000000000000000, 23129021245949454485047799185439710000000000000000000000),
  (999999999999789255549469126117095200000000000000000000000000000000, 786811982765871839446908752717307800000000000000000000),
  (999999999999996061798502116578285600000000000000000000000000000000, 16686480010327204668632199144683500000000000000000000),
  (999999999999999956992391627568209800000000000000000000000000000000, 206836348942648814806092067674962100000000000000000),
  (999999999999999999744890728960876300000000000000000000000000000000, 1392744081123005797318706059380961000000000000000)]

/-- n = 54. quadrature_lib.cpp:6528-6581. -/
def b54 : List (Nat × Nat) := [
  (129889721588955307165924361857184800000000000000, 709986059070051978822313870407519900000000000000),
  (22134587392944448787328774207721190000000000000000, 106773031407470979422443011214081300000000000000000),
  (2062843266010832527019259892235326000000000000000000, 8782480988306505619112069298686619000000000000000000),
  (112915077508995763323200495523195700000000000000000000, 424348315274267181003708323579796600000000000000000000),
  (3866199730074740572370711718578271000000000000000000000, 12827727998053793763170818076547490000000000000000000000),
  (87541203458642763699727666921088830000000000000000000000, 256489476358440033149472159962382200000000000000000000000),
  (1376763629772929642218991170047188000000000000000000000000, 3563132473266652857480315745093271000000000000000000000000),
  (15705680591945440318300533779634360000000000000000000000000, 35917306392957499955997905635727880000000000000000000000000),
  (135033623611124933289846979434255900000000000000000000000000, 273002578595295650081165626131427000000000000000000000000000),
  (905147242102851735203773160890920700000000000000000000000000, 1618757964098582601037538094541517000000000000000000000000000),
  (4874060070411943381614832847268502000000000000000000000000000, 7716541187743024268719950103932798000000000000000000000000000),
  (21650069803068455980396736592339420000000000000000000000000000, 30372397496336941522428645771543010000000000000000000000000000),
  (81208690691842569564871059659984270000000000000000000000000000, 101072291695024485705130998444190100000000000000000000000000000),
  (262616471081458872246353845432937100000000000000000000000000000, 290398858337259919271541280158930700000000000000000000000000000),
  (745696795143645799171974905613997200000000000000000000000000000, 733865625670091220959242163358345200000000000000000000000000000),
  (1889309814813832736300901460069308000000000000000000000000000000, 1657857734795615246759107015703771000000000000000000000000000000),
  (4331388044876284174149612506280919000000000000000000000000000000, 3395230525821022179781382545572030000000000000000000000000000000),
  (9094298755730851669726869980251481000000000000000000000000000000, 6378296424481648420635363483477149000000000000000000000000000000),
  (17666865026995493464894116684325400000000000000000000000000000000, 11097281848625281651553806066914670000000000000000000000000000000),
  (32023325596199720698419389850766250000000000000000000000000000000, 18014411907634285724483871456796400000000000000000000000000000000),
  (54532055874635610866547896497357280000000000000000000000000000000, 27429497934237210080518184453766980000000000000000000000000000000),
  (87708910213514545436543128806275980000000000000000000000000000000, 39307097615439519820356994722723980000000000000000000000000000000),
  (133792375565584693003896919593862200000000000000000000000000000000, 53101904717773465787036580813442530000000000000000000000000000000),
  (194171398050055269530950767926198400000000000000000000000000000000, 67653095381166656825696264593464010000000000000000000000000000000),
  (268780189345026543328816110256473000000000000000000000000000000000, 81238920313640769333473766862332420000000000000000000000000000000),
  (355657846972463926531467623280480300000000000000000000000000000000, 91856966716594010467446205080729680000000000000000000000000000000),
  (450895487066952988020067147940172800000000000000000000000000000000, 97704081654672056132353610545000110000000000000000000000000000000),
  (549104512933047011979932852059827200000000000000000000000000000000, 97704081654672056132353610545000110000000000000000000000000000000),
  (644342153027536073468532376719519700000000000000000000000000000000, 91856966716594010467446205080729680000000000000000000000000000000),
  (731219810654973456671183889743527000000000000000000000000000000000, 81238920313640769333473766862332420000000000000000000000000000000),
  (805828601949944730469049232073801700000000000000000000000000000000, 67653095381166656825696264593464010000000000000000000000000000000),
  (866207624434415306996103080406137800000000000000000000000000000000, 53101904717773465787036580813442530000000000000000000000000000000),
  (912291089786485454563456871193724000000000000000000000000000000000, 39307097615439519820356994722723980000000000000000000000000000000),
  (945467944125364389133452103502642800000000000000000000000000000000, 27429497934237210080518184453766980000000000000000000000000000000),
  (967976674403800279301580610149233800000000000000000000000000000000, 18014411907634285724483871456796400000000000000000000000000000000),
  (982333134973004506535105883315674600000000000000000000000000000000, 11097281848625281651553806066914670000000000000000000000000000000),
  (990905701244269148330273130019748600000000000000000000000000000000, 6378296424481648420635363483477149000000000000000000000000000000),
  (995668611955123715825850387493719100000000000000000000000000000000, 3395230525821022179781382545572028000000000000000000000000000000),
  (998110690185186167263699098539930700000000000000000000000000000000, 1657857734795615246759107015703771000000000000000000000000000000),
  (999254303204856354200828025094385900000000000000000000000000000000, 733865625670091220959242163358345200000000000000000000000000000),
  (999737383528918541127753646154567100000000000000000000000000000000, 290398858337259919271541280158930700000000000000000000000000000),
  (999918791309308157430435128940340000000000000000000000000000000000, 101072291695024485705130998444190200000000000000000000000000000),
  (999978349930196931544019603263407600000000000000000000000000000000, 30372397496336941522428645771542970000000000000000000000000000),
  (999995125939929588056618385167152700000000000000000000000000000000, 7716541187743024268719950103932776000000000000000000000000000),
  (999999094852757897148264796226839200000000000000000000000000000000, 1618757964098582601037538094541517000000000000000000000000000),
  (999999864966376388875066710153020600000000000000000000000000000000, 273002578595295650081165626131427000000000000000000000000000),
  (999999984294319408054559681699466100000000000000000000000000000000, 35917306392957499955997905635727880000000000000000000000000),
  (999999998623236370227070357781008800000000000000000000000000000000, 3563132473266652857480315745093270000000000000000000000000),
  (999999999912458796541357236300272400000000000000000000000000000000, 256489476358440033149472159962382200000000000000000000000),
  (999999999996133800269925259427629200000000000000000000000000000000, 12827727998053793763170818076547500000000000000000000000),
  (999999999999887084922491004236676800000000000000000000000000000000, 424348315274267181003708323579796600000000000000000000),
  (999999999999997937156733989167473000000000000000000000000000000000, 8782480988306505619112069298686619000000000000000000),
  (999999999999999977865412607055551200000000000000000000000000000000, 106773031407470979422443011214081300000000000000000),
  (999999999999999999870110278411044700000000000000000000000000000000, 709986059070051978822313870407519900000000000000)]

/-- n = 55. quadrature_lib.cpp:6582-6636. -/
def b55 : List (Nat × Nat) := [
  (66279358374721912117189053451959680000000000000, 362715600513346801938458663073815600000000000000),
  (11413388474065558704364227062305210000000000000000, 55216932491044164650646845938177520000000000000000),
  (1082036720324373240687641536575711000000000000000000, 4628202856979998171995190533277658000000000000000000),
  (60548651905205663341021162483864480000000000000000000, 229003726383639859838941814299855500000000000000000000),
  (2126880191481806809234548883102772000000000000000000000, 7114085693657922264911765970649467000000000000000000000),
  (49522750776403635331504835938216410000000000000000000000, 146523982609746668235416438019730000000000000000000000000),
  (802056017693440651551611071908376700000000000000000000000, 2099671871124570584409665959097189000000000000000000000000),
  (9428568584517799580613928076340925000000000000000000000000, 21846506999443583285329508979517370000000000000000000000000),
  (83541412257008915251813967434602830000000000000000000000000, 171401593122704037408071470118381600000000000000000000000000),
  (576856861728989080326989776823295900000000000000000000000000, 1048568006427349987924841779549304000000000000000000000000000),
  (3197292682925910181642091919229177000000000000000000000000000, 5152640230942645780200399341821471000000000000000000000000000),
  (14602264309491807547443742987510670000000000000000000000000000, 20881890619947357879189197607151740000000000000000000000000000),
  (56242448884720924443887309966823220000000000000000000000000000, 71448718201970058668437859158907610000000000000000000000000000),
  (186487309275156353804822848467528100000000000000000000000000000, 210738734043587193944864360595756500000000000000000000000000000),
  (542102456299838666190833981957118300000000000000000000000000000, 545795626639559769454187905415114300000000000000000000000000000),
  (1403882697040252507997433550142884000000000000000000000000000000, 1261545815442954759412455844517484000000000000000000000000000000),
  (3284745730617596577745580507081916000000000000000000000000000000, 2639330072639194440636005964458281000000000000000000000000000000),
  (7028832375082519752078127133064442000000000000000000000000000000, 5058527704590838170587449525889984000000000000000000000000000000),
  (13899191761720710522753074298043640000000000000000000000000000000, 8970346395449860245022437514193559000000000000000000000000000000),
  (25621223099752248807652724043032590000000000000000000000000000000, 14834124954870014231906158302493910000000000000000000000000000000),
  (44340858083930425840817677820947550000000000000000000000000000000, 23010007924513123250069311544817940000000000000000000000000000000),
  (72454256807232088319213698406131660000000000000000000000000000000, 33611058748134912380149389393004280000000000000000000000000000000),
  (112277530246793200753823423685803500000000000000000000000000000000, 46337124376392384692518512475165550000000000000000000000000000000),
  (165561244905709226568430889424143900000000000000000000000000000000, 60341668062297201437438877775386280000000000000000000000000000000),
  (232919971505079242456287400996529800000000000000000000000000000000, 74209119657056950586347412849211060000000000000000000000000000000),
  (313327310257693906321092441110889200000000000000000000000000000000, 86118285815767413584685987626381510000000000000000000000000000000),
  (403879445490807110335037740166362900000000000000000000000000000000, 94211501080486307752648518326316290000000000000000000000000000000),
  (500000000000000000000000000000000000000000000000000000000000000000, 97084195425945322016756197135539820000000000000000000000000000000),
  (596120554509192889664962259833637100000000000000000000000000000000, 94211501080486307752648518326316290000000000000000000000000000000),
  (686672689742306093678907558889110900000000000000000000000000000000, 86118285815767413584685987626381510000000000000000000000000000000),
  (767080028494920757543712599003470300000000000000000000000000000000, 74209119657056950586347412849211060000000000000000000000000000000),
  (834438755094290773431569110575856100000000000000000000000000000000, 60341668062297201437438877775386280000000000000000000000000000000),
  (887722469753206799246176576314196400000000000000000000000000000000, 46337124376392384692518512475165570000000000000000000000000000000),
  (927545743192767911680786301593868300000000000000000000000000000000, 33611058748134912380149389393004290000000000000000000000000000000),
  (955659141916069574159182322179052500000000000000000000000000000000, 23010007924513123250069311544817940000000000000000000000000000000),
  (974378776900247751192347275956967300000000000000000000000000000000, 14834124954870014231906158302493910000000000000000000000000000000),
  (986100808238279289477246925701956300000000000000000000000000000000, 8970346395449860245022437514193559000000000000000000000000000000),
  (992971167624917480247921872866935500000000000000000000000000000000, 5058527704590838170587449525889984000000000000000000000000000000),
  (996715254269382403422254419492918100000000000000000000000000000000, 2639330072639194440636005964458281000000000000000000000000000000),
  (998596117302959747492002566449857000000000000000000000000000000000, 1261545815442954759412455844517485000000000000000000000000000000),
  (999457897543700161333809166018042800000000000000000000000000000000, 545795626639559769454187905415114300000000000000000000000000000),
  (999813512690724843646195177151532500000000000000000000000000000000, 210738734043587193944864360595756500000000000000000000000000000),
  (999943757551115279075556112690033200000000000000000000000000000000, 71448718201970058668437859158907610000000000000000000000000000),
  (999985397735690508192452556257012500000000000000000000000000000000, 20881890619947357879189197607151740000000000000000000000000000),
  (999996802707317074089818357908080800000000000000000000000000000000, 5152640230942645780200399341821471000000000000000000000000000),
  (999999423143138271010919673010223200000000000000000000000000000000, 1048568006427349987924841779549304000000000000000000000000000),
  (999999916458587742991084748186032500000000000000000000000000000000, 171401593122704037408071470118381600000000000000000000000000),
  (999999990571431415482200419386072000000000000000000000000000000000, 21846506999443583285329508979517370000000000000000000000000),
  (999999999197943982306559348448389000000000000000000000000000000000, 2099671871124570584409665959097189000000000000000000000000),
  (999999999950477249223596364668495300000000000000000000000000000000, 146523982609746668235416438019730400000000000000000000000),
  (999999999997873119808518193190765400000000000000000000000000000000, 7114085693657922264911765970649467000000000000000000000),
  (999999999999939451348094794336659000000000000000000000000000000000, 229003726383639859838941814299855500000000000000000000),
  (999999999999998917963279675626759200000000000000000000000000000000, 4628202856979998171995190533277658000000000000000000),
  (999999999999999988586611525934441300000000000000000000000000000000, 55216932491044164650646845938177520000000000000000),
  (999999999999999999933720641625278000000000000000000000000000000000, 362715600513346801938458663073813300000000000000)]

/-- n = 56. quadrature_lib.cpp:6637-6692. -/
def b56 : List (Nat × Nat) := [
  (33893335947745384619616314835017320000000000000, 185694458326326212966892704433654800000000000000),
  (5896014912746533490558915281659975000000000000000, 28605181689141396933798856429085720000000000000000),
  (568352563575461754718998631858251000000000000000000, 2442001306800953603242404730526530000000000000000000),
  (32494968857222152192682499298889590000000000000000000, 123662397595932943835452203907498600000000000000000000),
  (1170312121196234653552447762697199000000000000000000000, 3945321535807872251709786167591086000000000000000000000),
  (28005030448526832927899538811429610000000000000000000000, 83648782809632447637053022462756800000000000000000000000),
  (466808311445981797345921216478620700000000000000000000000, 1235696078643141034376950180481657000000000000000000000000),
  (5651867575004017210042942388399934000000000000000000000000, 13263261762296641813118175604701860000000000000000000000000),
  (51583730577991171047938795817485780000000000000000000000000, 107356689285917632480239143415060200000000000000000000000000),
  (366767607390057394806973666058490000000000000000000000000000, 677305856270546191665734443557068000000000000000000000000000),
  (2091715652428637459247348429045418000000000000000000000000000, 3429669766642741408793376592466579000000000000000000000000000),
  (9819677096157187792434771939775105000000000000000000000000000, 14307173081817219057142961918315990000000000000000000000000000),
  (38829502040409844332907188670475700000000000000000000000000000, 50322724371040892597319743677213400000000000000000000000000000),
  (131996602372716374031425845211808600000000000000000000000000000, 152352292278700654612756943931187500000000000000000000000000000),
  (392792535264120876591013363025715500000000000000000000000000000, 404365408690331247746244590678243600000000000000000000000000000),
  (1039722305032857887843482990004891000000000000000000000000000000, 956270957463539698939076272440228900000000000000000000000000000),
  (2482798032348156975638316209490227000000000000000000000000000000, 2043770742689456600032225078089554000000000000000000000000000000),
  (5414596269425413527272714940759358000000000000000000000000000000, 3996028005108093742384607675354911000000000000000000000000000000),
  (10898754275859232378498915312896820000000000000000000000000000000, 7221253357918280025858125721947517000000000000000000000000000000),
  (20429128177887708235470182364852900000000000000000000000000000000, 12161033653840505128205049722854750000000000000000000000000000000),
  (35924578305579771629267214580239800000000000000000000000000000000, 19206410435661401748128770439400750000000000000000000000000000000),
  (59619810017420724196092825893155030000000000000000000000000000000, 28574542600553500892691043888188460000000000000000000000000000000),
  (93817436650086704401242873365146540000000000000000000000000000000, 40158159074193454337936658687632640000000000000000000000000000000),
  (140489364295245520773647968040196500000000000000000000000000000000, 53382890639687586142107013461737560000000000000000000000000000000),
  (200764184059172576940628526650004000000000000000000000000000000000, 67134032679157418540169496684425100000000000000000000000000000000),
  (274407043625158125091977785552760700000000000000000000000000000000, 79826264071040343663614559885443100000000000000000000000000000000),
  (359462502066153412421108874344661300000000000000000000000000000000, 89662556815372100098466152379841670000000000000000000000000000000),
  (452242165776712621584869853704822300000000000000000000000000000000, 95051210449902151687218767763209100000000000000000000000000000000),
  (547757834223287378415130146295177700000000000000000000000000000000, 95051210449902151687218767763209100000000000000000000000000000000),
  (640537497933846587578891125655338700000000000000000000000000000000, 89662556815372100098466152379841670000000000000000000000000000000),
  (725592956374841874908022214447239200000000000000000000000000000000, 79826264071040343663614559885443130000000000000000000000000000000),
  (799235815940827423059371473349996000000000000000000000000000000000, 67134032679157418540169496684425100000000000000000000000000000000),
  (859510635704754479226352031959803500000000000000000000000000000000, 53382890639687586142107013461737550000000000000000000000000000000),
  (906182563349913295598757126634853500000000000000000000000000000000, 40158159074193454337936658687632640000000000000000000000000000000),
  (940380189982579275803907174106845000000000000000000000000000000000, 28574542600553500892691043888188450000000000000000000000000000000),
  (964075421694420228370732785419760200000000000000000000000000000000, 19206410435661401748128770439400750000000000000000000000000000000),
  (979570871822112291764529817635147100000000000000000000000000000000, 12161033653840505128205049722854750000000000000000000000000000000),
  (989101245724140767621501084687103200000000000000000000000000000000, 7221253357918280025858125721947517000000000000000000000000000000),
  (994585403730574586472727285059240700000000000000000000000000000000, 3996028005108093742384607675354911000000000000000000000000000000),
  (997517201967651843024361683790509800000000000000000000000000000000, 2043770742689456600032225078089554000000000000000000000000000000),
  (998960277694967142112156517009995100000000000000000000000000000000, 956270957463539698939076272440228900000000000000000000000000000),
  (999607207464735879123408986636974400000000000000000000000000000000, 404365408690331247746244590678243600000000000000000000000000000),
  (999868003397627283625968574154788100000000000000000000000000000000, 152352292278700654612756943931187500000000000000000000000000000),
  (999961170497959590155667092811329500000000000000000000000000000000, 50322724371040892597319743677213400000000000000000000000000000),
  (999990180322903842812207565228060200000000000000000000000000000000, 14307173081817219057142961918315990000000000000000000000000000),
  (999997908284347571362540752651570900000000000000000000000000000000, 3429669766642741408793376592466579000000000000000000000000000),
  (999999633232392609942605193026334000000000000000000000000000000000, 677305856270546191665734443557067800000000000000000000000000),
  (999999948416269422008828952061204100000000000000000000000000000000, 107356689285917632480239143415060200000000000000000000000000),
  (999999994348132424995982789957057600000000000000000000000000000000, 13263261762296641813118175604701900000000000000000000000000),
  (999999999533191688554018202654078800000000000000000000000000000000, 1235696078643141034376950180481657000000000000000000000000),
  (999999999971994969551473167072100400000000000000000000000000000000, 83648782809632447637053022462756840000000000000000000000),
  (999999999998829687878803765346447500000000000000000000000000000000, 3945321535807872251709786167591086000000000000000000000),
  (999999999999967505031142777847807200000000000000000000000000000000, 123662397595932943835452203907498600000000000000000000),
  (999999999999999431647436424538245200000000000000000000000000000000, 2442001306800953603242404730526530000000000000000000),
  (999999999999999994103985087253466400000000000000000000000000000000, 28605181689141396933798856429085550000000000000000),
  (999999999999999999966106664052254600000000000000000000000000000000, 185694458326326212966892704433654800000000000000)]

/-- n = 57. quadrature_lib.cpp:6693-6749. -/
def b57 : List (Nat × Nat) := [
  (17368460182890840143083358604948330000000000000, 95263645047018363519309184572003360000000000000),
  (3051319428708338863052033417557101000000000000000, 14844481598549142540263708412002430000000000000000),
  (298941591833798369257941024345108200000000000000000, 1290069926112017120333096811127662000000000000000000),
  (17453751179862842931869849958662010000000000000000000, 66821098117599753008056146905825160000000000000000000),
  (644126780691064740504795648849937300000000000000000000, 2188041548103604870645215308312894000000000000000000000),
  (15831632506519020841430462393405410000000000000000000000, 47725155968065367195025286981772870000000000000000000000),
  (271448398232225260520524629190541300000000000000000000000, 726349283595787709662328260967232700000000000000000000000),
  (3383194610374651861644939358286422000000000000000000000000, 8037992311146663881009137068856845000000000000000000000000),
  (31791413386722648278452740569054940000000000000000000000000, 67089164028667263441394316337691320000000000000000000000000),
  (232661621120144792843636929392285900000000000000000000000000, 436306223927288502966579430071601000000000000000000000000000),
  (1364860521688414944988932077829720000000000000000000000000000, 2275803412304465494734036896634754000000000000000000000000000),
  (6584534506351693841835445888948527000000000000000000000000000, 9769526080466029650589345752479283000000000000000000000000000),
  (26725557888787364384152404118844230000000000000000000000000000, 35316666886097587488540202548074590000000000000000000000000000),
  (93130011016980189645795913120337670000000000000000000000000000, 109734344666842847899303110818958500000000000000000000000000000),
  (283681422541113445193987144213409700000000000000000000000000000, 298454521586216432382532749956013400000000000000000000000000000),
  (767507855196607147515204403932661700000000000000000000000000000, 722120509554494365760179515847834600000000000000000000000000000),
  (1870533999901183470111570254153768000000000000000000000000000000, 1576585636602438791119543557905135000000000000000000000000000000),
  (4157585183693411356749024465529658000000000000000000000000000000, 3144584159589413052805838031202061000000000000000000000000000000),
  (8518313947092930317729018633520187000000000000000000000000000000, 5790220595522303182825693798303193000000000000000000000000000000),
  (16235418707772837109861761592812320000000000000000000000000000000, 9927714928566314213736535315500841000000000000000000000000000000),
  (29005644271579403911258477437675680000000000000000000000000000000, 15957220345907785013743710973395270000000000000000000000000000000),
  (48878395316812069238056792230236720000000000000000000000000000000, 24164168386710244910501446227166630000000000000000000000000000000),
  (78077138543796314997605182158060100000000000000000000000000000000, 34587567622707779019389656126322630000000000000000000000000000000),
  (118682067267742322334292966284615900000000000000000000000000000000, 46879870244893135549093074731285880000000000000000000000000000000),
  (172186669597138453297763323815219900000000000000000000000000000000, 60204582545037763429588347968088410000000000000000000000000000000),
  (238997476170175398294229105653719500000000000000000000000000000000, 73236351081165555731167472822273470000000000000000000000000000000),
  (318010564874110480762802435414481000000000000000000000000000000000, 84321278701355874613280179760842900000000000000000000000000000000),
  (406434980379324433445524662374005500000000000000000000000000000000, 91805242426763228761469677976043930000000000000000000000000000000),
  (500000000000000000000000000000000000000000000000000000000000000000, 94452859486561735360854035345356610000000000000000000000000000000),
  (593565019620675566554475337625994500000000000000000000000000000000, 91805242426763228761469677976043930000000000000000000000000000000),
  (681989435125889519237197564585519100000000000000000000000000000000, 84321278701355874613280179760842900000000000000000000000000000000),
  (761002523829824601705770894346280500000000000000000000000000000000, 73236351081165555731167472822273470000000000000000000000000000000),
  (827813330402861546702236676184780100000000000000000000000000000000, 60204582545037763429588347968088420000000000000000000000000000000),
  (881317932732257677665707033715384000000000000000000000000000000000, 46879870244893135549093074731285880000000000000000000000000000000),
  (921922861456203685002394817841940000000000000000000000000000000000, 34587567622707779019389656126322630000000000000000000000000000000),
  (951121604683187930761943207769763300000000000000000000000000000000, 24164168386710244910501446227166630000000000000000000000000000000),
  (970994355728420596088741522562324400000000000000000000000000000000, 15957220345907785013743710973395270000000000000000000000000000000),
  (983764581292227162890138238407187700000000000000000000000000000000, 9927714928566314213736535315500843000000000000000000000000000000),
  (991481686052907069682270981366479800000000000000000000000000000000, 5790220595522303182825693798303193000000000000000000000000000000),
  (995842414816306588643250975534470400000000000000000000000000000000, 3144584159589413052805838031202060000000000000000000000000000000),
  (998129466000098816529888429745846200000000000000000000000000000000, 1576585636602438791119543557905135000000000000000000000000000000),
  (999232492144803392852484795596067400000000000000000000000000000000, 722120509554494365760179515847834600000000000000000000000000000),
  (999716318577458886554806012855786700000000000000000000000000000000, 298454521586216432382532749956013400000000000000000000000000000),
  (999906869988983019810354204086879600000000000000000000000000000000, 109734344666842847899303110818958500000000000000000000000000000),
  (999973274442111212635615847595881200000000000000000000000000000000, 35316666886097587488540202548074590000000000000000000000000000),
  (999993415465493648306158164554111000000000000000000000000000000000, 9769526080466029650589345752479283000000000000000000000000000),
  (999998635139478311585055011067922200000000000000000000000000000000, 2275803412304465494734036896634754000000000000000000000000000),
  (999999767338378879855207156363070700000000000000000000000000000000, 436306223927288502966579430071601000000000000000000000000000),
  (999999968208586613277351721547259500000000000000000000000000000000, 67089164028667263441394316337691320000000000000000000000000),
  (999999996616805389625348138355060500000000000000000000000000000000, 8037992311146663881009137068856845000000000000000000000000),
  (999999999728551601767774739479475400000000000000000000000000000000, 726349283595787709662328260967234800000000000000000000000),
  (999999999984168367493480979158569600000000000000000000000000000000, 47725155968065367195025286981772860000000000000000000000),
  (999999999999355873219308935259495300000000000000000000000000000000, 2188041548103604870645215308312894000000000000000000000),
  (999999999999982546248820137157068000000000000000000000000000000000, 66821098117599753008056146905825160000000000000000000),
  (999999999999999701058408166201630700000000000000000000000000000000, 1290069926112017120333096811127662000000000000000000),
  (999999999999999996948680571291661100000000000000000000000000000000, 14844481598549142540263708412002430000000000000000),
  (999999999999999999982631539817109200000000000000000000000000000000, 95263645047018363519309184572003920000000000000)]

/-- n = 58. quadrature_lib.cpp:6750-6807. -/
def b58 : List (Nat × Nat) := [
  (8918640072504932716587064157048497000000000000, 48970107625988318199521683448365430000000000000),
  (1581928121493090004258999348757151000000000000000, 7716490361217364077038487247457349000000000000000),
  (157449127683300133675098163882347300000000000000000, 682354188425217786921182284151880000000000000000000),
  (9382615865237585183882962480267625000000000000000000, 36130629248094337374355979146515170000000000000000000),
  (354619160143324232373453114389943500000000000000000000, 1213537899973216766470969274282513000000000000000000000),
  (8947297559468057747384159623628606000000000000000000000, 27214194613660818551954916040207390000000000000000000000),
  (157715986817177403093791934665124800000000000000000000000, 426465650797066322408538389670817100000000000000000000000),
  (2022464546827969210146083153370115000000000000000000000000, 4863072491481445725474448009652985000000000000000000000000),
  (19558106525976623463334370692586750000000000000000000000000, 41833649687719234286073527251100880000000000000000000000000),
  (147266845858396024405485080886697100000000000000000000000000, 280323548499743403078334286904200500000000000000000000000000),
  (888331382199717530554504259375144300000000000000000000000000, 1505637947947603171691350113743176000000000000000000000000000),
  (4402892337792805522981846802990323000000000000000000000000000, 6649216284833510044890951389772334000000000000000000000000000),
  (18339624814017256783982747258013260000000000000000000000000000, 24698998701009305085594459880344130000000000000000000000000000),
  (65502435339149864069318177756818470000000000000000000000000000, 78751507310192912232694161774238310000000000000000000000000000),
  (204224421172166215256609026000444100000000000000000000000000000, 219468423581139378813141158184237900000000000000000000000000000),
  (564738092671622036470670774865462800000000000000000000000000000, 543270822451832882291008630721229800000000000000000000000000000),
  (1404729933829423745224995849762083000000000000000000000000000000, 1211655319573121127624264672850052000000000000000000000000000000),
  (3182209796064338296793050237793088000000000000000000000000000000, 2465280180074103285142143959119337000000000000000000000000000000),
  (6636618265674607606959976645948778000000000000000000000000000000, 4625011784792556642742448516277046000000000000000000000000000000),
  (12861149136822202760252182240240610000000000000000000000000000000, 8072039920992769268895376424527628000000000000000000000000000000),
  (23341734853095520603444264586812210000000000000000000000000000000, 13200042936644648328458729779418120000000000000000000000000000000),
  (39932078813685317820994615337348890000000000000000000000000000000, 20334656034674728270141334344435980000000000000000000000000000000),
  (64731869394580893750101628865531480000000000000000000000000000000, 29621344555853997996186724606094810000000000000000000000000000000),
  (99841960893282193375180250928391490000000000000000000000000000000, 40895151344525704477080024700928490000000000000000000000000000000),
  (146993021532458170157291780454273100000000000000000000000000000000, 53565202701555802739348808715685030000000000000000000000000000000),
  (207087575507804134890949349460257400000000000000000000000000000000, 66567060334473481198244781179463440000000000000000000000000000000),
  (279753358528995402826494483666439300000000000000000000000000000000, 78441786142700325788790991186236960000000000000000000000000000000),
  (363054564944517670463965957262454000000000000000000000000000000000, 87573545194574620373206779986812800000000000000000000000000000000),
  (453509527208611039118341540705137500000000000000000000000000000000, 92552551468086301908818135208346460000000000000000000000000000000),
  (546490472791388960881658459294862500000000000000000000000000000000, 92552551468086301908818135208346460000000000000000000000000000000),
  (636945435055482329536034042737546000000000000000000000000000000000, 87573545194574620373206779986812800000000000000000000000000000000),
  (720246641471004597173505516333560600000000000000000000000000000000, 78441786142700325788790991186236960000000000000000000000000000000),
  (792912424492195865109050650539742600000000000000000000000000000000, 66567060334473481198244781179463440000000000000000000000000000000),
  (853006978467541829842708219545726900000000000000000000000000000000, 53565202701555802739348808715685030000000000000000000000000000000),
  (900158039106717806624819749071608500000000000000000000000000000000, 40895151344525704477080024700928490000000000000000000000000000000),
  (935268130605419106249898371134468600000000000000000000000000000000, 29621344555853997996186724606094810000000000000000000000000000000),
  (960067921186314682179005384662651100000000000000000000000000000000, 20334656034674728270141334344435980000000000000000000000000000000),
  (976658265146904479396555735413187800000000000000000000000000000000, 13200042936644648328458729779418120000000000000000000000000000000),
  (987138850863177797239747817759759500000000000000000000000000000000, 8072039920992769268895376424527628000000000000000000000000000000),
  (993363381734325392393040023354051200000000000000000000000000000000, 4625011784792556642742448516277046000000000000000000000000000000),
  (996817790203935661703206949762207000000000000000000000000000000000, 2465280180074103285142143959119337000000000000000000000000000000),
  (998595270066170576254775004150237900000000000000000000000000000000, 1211655319573121127624264672850052000000000000000000000000000000),
  (999435261907328377963529329225134500000000000000000000000000000000, 543270822451832882291008630721229800000000000000000000000000000),
  (999795775578827833784743390973999400000000000000000000000000000000, 219468423581139378813141158184237900000000000000000000000000000),
  (999934497564660850135930681822243200000000000000000000000000000000, 78751507310192912232694161774238310000000000000000000000000000),
  (999981660375185982743216017252742000000000000000000000000000000000, 24698998701009305085594459880344130000000000000000000000000000),
  (999995597107662207194477018153197000000000000000000000000000000000, 6649216284833510044890951389772336000000000000000000000000000),
  (999999111668617800282469445495740700000000000000000000000000000000, 1505637947947603171691350113743176000000000000000000000000000),
  (999999852733154141603975594514919200000000000000000000000000000000, 280323548499743403078334286904200500000000000000000000000000),
  (999999980441893474023376536665629400000000000000000000000000000000, 41833649687719234286073527251100900000000000000000000000000),
  (999999997977535453172030789853916800000000000000000000000000000000, 4863072491481445725474448009652985000000000000000000000000),
  (999999999842284013182822596906208100000000000000000000000000000000, 426465650797066322408538389670817100000000000000000000000),
  (999999999991052702440531942252615800000000000000000000000000000000, 27214194613660818551954916040207390000000000000000000000),
  (999999999999645380839856675767626500000000000000000000000000000000, 1213537899973216766470969274282513000000000000000000000),
  (999999999999990617384134762414816200000000000000000000000000000000, 36130629248094337374355979146515170000000000000000000),
  (999999999999999842550872316699866400000000000000000000000000000000, 682354188425217786921182284151880000000000000000000),
  (999999999999999998418071878506910100000000000000000000000000000000, 7716490361217364077038487247457349000000000000000),
  (999999999999999999991081359927495100000000000000000000000000000000, 48970107625988318199521683448365730000000000000)]

/-- n = 59. quadrature_lib.cpp:6808-6866. -/
def b59 : List (Nat × Nat) := [
  (4588877201168353062016180765917596000000000000, 25222688574557063459710477308644140000000000000),
  (821563491097234929065196073094747300000000000000, 4017871249374215715680485273654285000000000000000),
  (83037132172825910083166765591306310000000000000000, 361352468965239785550101194377825000000000000000000),
  (5048039113562532303754679507652099000000000000000000, 19549153541620377351263464282204920000000000000000000),
  (195291647203077133415750800952371400000000000000000000, 673115313613102935310217366419102100000000000000000000),
  (5055355252268304036893512507743057000000000000000000000, 15510514371943720970101532195148610000000000000000000000),
  (91564579609515299165187896530210080000000000000000000000, 250124805253055413800048478403056900000000000000000000000),
  (1207487276385546061233723749437680000000000000000000000000, 2937481017147931252767524994418010000000000000000000000000),
  (12011466966357813739161573126106230000000000000000000000000, 26030865940612431470844885790875170000000000000000000000000),
  (93017803836711894644805830626540450000000000000000000000000, 179651590153048319449551938236802200000000000000000000000000),
  (576763344150459490978979302162729600000000000000000000000000, 993234793468821905732331774708235800000000000000000000000000),
  (2936093198651869701206438188399240000000000000000000000000000, 4511132383322817136745392577730663000000000000000000000000000),
  (12548273264266437848846551225844560000000000000000000000000000, 17214758155824862924419369129146590000000000000000000000000000),
  (45929710641018675782080118472377100000000000000000000000000000, 56315977344683408077941990407933280000000000000000000000000000),
  (146560554140001970434009625979349200000000000000000000000000000, 160799626489749985051365124217790400000000000000000000000000000),
  (414218993192190106173607002013779100000000000000000000000000000, 407218433094843187947075549456625100000000000000000000000000000),
  (1051576366701439753264880177047954000000000000000000000000000000, 927776550037200288643341338907402300000000000000000000000000000),
  (2427992627708332054797519692816417000000000000000000000000000000, 1925618345707645478426896189214401000000000000000000000000000000),
  (5154414195229401126692234906277587000000000000000000000000000000, 3680544137909618959561989096074271000000000000000000000000000000),
  (10156192980104350483531887619065310000000000000000000000000000000, 6537958908663174446879577996401276000000000000000000000000000000),
  (18723647806447183231496895804179080000000000000000000000000000000, 10874376916535860854606044656765500000000000000000000000000000000),
  (32514123724089361907445167914225620000000000000000000000000000000, 17034245915347858761383238190213200000000000000000000000000000000),
  (53475646407182899546810569368228940000000000000000000000000000000, 25236588443237569338533423946152620000000000000000000000000000000),
  (83664544385875131712356333109050900000000000000000000000000000000, 35458536616251225681696661356534510000000000000000000000000000000),
  (124943517631958671726270450080755200000000000000000000000000000000, 47317954234999146489310592938974210000000000000000000000000000000),
  (178578277636838223358703299259969700000000000000000000000000000000, 59996284012499646003502010509457750000000000000000000000000000000),
  (244799464825483550705528025182708700000000000000000000000000000000, 72255319913907419671863661206178470000000000000000000000000000000),
  (322447823786570260572577692040795000000000000000000000000000000000, 82591649715353320128389299993425090000000000000000000000000000000),
  (408845205084777161022696945727164100000000000000000000000000000000, 89528405902269197587679810845285370000000000000000000000000000000),
  (500000000000000000000000000000000000000000000000000000000000000000, 91974956677507525860162475086266240000000000000000000000000000000),
  (591154794915222838977303054272835800000000000000000000000000000000, 89528405902269197587679810845285370000000000000000000000000000000),
  (677552176213429739427422307959204900000000000000000000000000000000, 82591649715353320128389299993425090000000000000000000000000000000),
  (755200535174516449294471974817291300000000000000000000000000000000, 72255319913907419671863661206178470000000000000000000000000000000),
  (821421722363161776641296700740030300000000000000000000000000000000, 59996284012499646003502010509457750000000000000000000000000000000),
  (875056482368041328273729549919244800000000000000000000000000000000, 47317954234999146489310592938974210000000000000000000000000000000),
  (916335455614124868287643666890949100000000000000000000000000000000, 35458536616251225681696661356534510000000000000000000000000000000),
  (946524353592817100453189430631771100000000000000000000000000000000, 25236588443237569338533423946152620000000000000000000000000000000),
  (967485876275910638092554832085774500000000000000000000000000000000, 17034245915347858761383238190213200000000000000000000000000000000),
  (981276352193552816768503104195820900000000000000000000000000000000, 10874376916535860854606044656765500000000000000000000000000000000),
  (989843807019895649516468112380934600000000000000000000000000000000, 6537958908663174446879577996401276000000000000000000000000000000),
  (994845585804770598873307765093722400000000000000000000000000000000, 3680544137909618959561989096074270000000000000000000000000000000),
  (997572007372291667945202480307183500000000000000000000000000000000, 1925618345707645478426896189214401000000000000000000000000000000),
  (998948423633298560246735119822952100000000000000000000000000000000, 927776550037200288643341338907402500000000000000000000000000000),
  (999585781006807809893826392997986100000000000000000000000000000000, 407218433094843187947075549456625100000000000000000000000000000),
  (999853439445859998029565990374020700000000000000000000000000000000, 160799626489749985051365124217790400000000000000000000000000000),
  (999954070289358981324217919881527600000000000000000000000000000000, 56315977344683408077941990407933350000000000000000000000000000),
  (999987451726735733562151153448774200000000000000000000000000000000, 17214758155824862924419369129146590000000000000000000000000000),
  (999997063906801348130298793561811600000000000000000000000000000000, 4511132383322817136745392577730663000000000000000000000000000),
  (999999423236655849540509021020697900000000000000000000000000000000, 993234793468821905732331774708235800000000000000000000000000),
  (999999906982196163288105355194169400000000000000000000000000000000, 179651590153048319449551938236802200000000000000000000000000),
  (999999987988533033642186260838426900000000000000000000000000000000, 26030865940612431470844885790875170000000000000000000000000),
  (999999998792512723614453938766276200000000000000000000000000000000, 2937481017147931252767524994418010000000000000000000000000),
  (999999999908435420390484700834812100000000000000000000000000000000, 250124805253055413800048478403056100000000000000000000000),
  (999999999994944644747731695963106400000000000000000000000000000000, 15510514371943720970101532195148610000000000000000000000),
  (999999999999804708352796922866584200000000000000000000000000000000, 673115313613102935310217366419102100000000000000000000),
  (999999999999994951960886437467696200000000000000000000000000000000, 19549153541620377351263464282204910000000000000000000),
  (999999999999999916962867827174090000000000000000000000000000000000, 361352468965239785550101194377827200000000000000000),
  (999999999999999999178436508902765000000000000000000000000000000000, 4017871249374215715680485273654309000000000000000),
  (999999999999999999995411122798831600000000000000000000000000000000, 25222688574557063459710477308644140000000000000)]

/-- n = 60. quadrature_lib.cpp:6867-6926. -/
def b60 : List (Nat × Nat) := [
  (2365732556377263121806879748792999000000000000, 13016365270718065493141886387850910000000000000),
  (427402096118463840676340161570828700000000000000, 2095467671680664938531232561122840000000000000000),
  (43850589614617156327268509314199040000000000000000, 191589618151205686018837258084847400000000000000000),
  (2718228020599657728024056835821211000000000000000000, 10584611130462008817502093340371040000000000000000000),
  (107583210435356282795836443573548500000000000000000000, 373402058412952157750775740725619300000000000000000000),
  (2855756503658610679518655337177176000000000000000000000, 8836095058105018077926003424496542000000000000000000000),
  (53120855143711462660938905620497860000000000000000000000, 146551933528487067756321906581862600000000000000000000000),
  (720044578741244214046575360826728000000000000000000000000, 1771634638843686793491930342313438000000000000000000000000),
  (7364591583547885957737133489056327000000000000000000000000, 16165111197781599841408473513907020000000000000000000000000),
  (58632886404975530089429953546715140000000000000000000000000, 114853985539812542079061381285470600000000000000000000000000),
  (373585556730577635010386283264797900000000000000000000000000, 653386005010182950375093582734545800000000000000000000000000),
  (1952780487294110206253843725156474000000000000000000000000000, 3051116815553907391240534201402643000000000000000000000000000),
  (8561270409661933013192768731870433000000000000000000000000000, 11958642713616476445498073374327030000000000000000000000000000),
  (32108947926503412930992389076774750000000000000000000000000000, 40132340530502742657313677213579540000000000000000000000000000),
  (104853506090660601099583800373847500000000000000000000000000000, 117394171440046178691268555134794100000000000000000000000000000),
  (302866788396293152449921827381180500000000000000000000000000000, 304136616106382598064011516292439100000000000000000000000000000),
  (784742039593573836499692936800671300000000000000000000000000000, 707840345976216337589378252828449200000000000000000000000000000),
  (1846773857069861998454822450574553000000000000000000000000000000, 1498660899593175931604296633294976000000000000000000000000000000),
  (3990899845107397166765776533098834000000000000000000000000000000, 2918308599870868039894299519103941000000000000000000000000000000),
  (7995468585875511128415114309481627000000000000000000000000000000, 5275738074090692848559146342651290000000000000000000000000000000),
  (14972470102066299554039990350235010000000000000000000000000000000, 8923395730419784100850488822256261000000000000000000000000000000),
  (26389012074273306481705290228395460000000000000000000000000000000, 14208706696510251328900119639672050000000000000000000000000000000),
  (44026500618369828041158427398004580000000000000000000000000000000, 21397842758222755265040337932746070000000000000000000000000000000),
  (69850524736084693018241414538068740000000000000000000000000000000, 30574580776783695722509411115736310000000000000000000000000000000),
  (105772377257932928842262645409213700000000000000000000000000000000, 41528312127812158058822712031816930000000000000000000000000000000),
  (153305066917175660429361678608783800000000000000000000000000000000, 53661521355979478138927943375054690000000000000000000000000000000),
  (213155094017455432335664509992684400000000000000000000000000000000, 65962178169629929795839521253232890000000000000000000000000000000),
  (284839182174632542415301540690109000000000000000000000000000000000, 77087896648180678295901572992590530000000000000000000000000000000),
  (366451751462398971928122191552982900000000000000000000000000000000, 85582936442433249508267143710677860000000000000000000000000000000),
  (454704614905090156097002651612497000000000000000000000000000000000, 90194622154382369149027518808868120000000000000000000000000000000),
  (545295385094909843902997348387503000000000000000000000000000000000, 90194622154382369149027518808868120000000000000000000000000000000),
  (633548248537601028071877808447017000000000000000000000000000000000, 85582936442433249508267143710677860000000000000000000000000000000),
  (715160817825367457584698459309891100000000000000000000000000000000, 77087896648180678295901572992590530000000000000000000000000000000),
  (786844905982544567664335490007315700000000000000000000000000000000, 65962178169629929795839521253232890000000000000000000000000000000),
  (846694933082824339570638321391216200000000000000000000000000000000, 53661521355979478138927943375054690000000000000000000000000000000),
  (894227622742067071157737354590786400000000000000000000000000000000, 41528312127812158058822712031816920000000000000000000000000000000),
  (930149475263915306981758585461931200000000000000000000000000000000, 30574580776783695722509411115736310000000000000000000000000000000),
  (955973499381630171958841572601995400000000000000000000000000000000, 21397842758222755265040337932746070000000000000000000000000000000),
  (973610987925726693518294709771604600000000000000000000000000000000, 14208706696510251328900119639672050000000000000000000000000000000),
  (985027529897933700445960009649765100000000000000000000000000000000, 8923395730419784100850488822256261000000000000000000000000000000),
  (992004531414124488871584885690518300000000000000000000000000000000, 5275738074090692848559146342651290000000000000000000000000000000),
  (996009100154892602833234223466901200000000000000000000000000000000, 2918308599870868039894299519103942000000000000000000000000000000),
  (998153226142930138001545177549425400000000000000000000000000000000, 1498660899593175931604296633294976000000000000000000000000000000),
  (999215257960406426163500307063199400000000000000000000000000000000, 707840345976216337589378252828449200000000000000000000000000000),
  (999697133211603706847550078172618800000000000000000000000000000000, 304136616106382598064011516292439100000000000000000000000000000),
  (999895146493909339398900416199626100000000000000000000000000000000, 117394171440046178691268555134794100000000000000000000000000000),
  (999967891052073496587069007610923300000000000000000000000000000000, 40132340530502742657313677213579480000000000000000000000000000),
  (999991438729590338066986807231268100000000000000000000000000000000, 11958642713616476445498073374327010000000000000000000000000000),
  (999998047219512705889793746156274900000000000000000000000000000000, 3051116815553907391240534201402643000000000000000000000000000),
  (999999626414443269422364989613716800000000000000000000000000000000, 653386005010182950375093582734545800000000000000000000000000),
  (999999941367113595024469910570046500000000000000000000000000000000, 114853985539812542079061381285470600000000000000000000000000),
  (999999992635408416452114042262866500000000000000000000000000000000, 16165111197781599841408473513907020000000000000000000000000),
  (999999999279955421258755785953424600000000000000000000000000000000, 1771634638843686793491930342313438000000000000000000000000),
  (999999999946879144856288537339061000000000000000000000000000000000, 146551933528487067756321906581862100000000000000000000000),
  (999999999997144243496341389320481400000000000000000000000000000000, 8836095058105018077926003424496542000000000000000000000),
  (999999999999892416789564643717204200000000000000000000000000000000, 373402058412952157750775740725619300000000000000000000),
  (999999999999997281771979400342271900000000000000000000000000000000, 10584611130462008817502093340371040000000000000000000),
  (999999999999999956149410385382843600000000000000000000000000000000, 191589618151205686018837258084847400000000000000000),
  (999999999999999999572597903881536200000000000000000000000000000000, 2095467671680664938531232561122840000000000000000),
  (999999999999999999997634267443622800000000000000000000000000000000, 13016365270718065493141886387850910000000000000)]

/-- n = 61. quadrature_lib.cpp:6927-6987. -/
def b61 : List (Nat × Nat) := [
  (1221962657130277428452243421018582000000000000, 6729896351610595347340234178992209000000000000),
  (222720178883633652622191159522269200000000000000, 1094617444408437491621891677525391000000000000000),
  (23186888470616348568026215766380960000000000000000, 101701618646988103975798014940046500000000000000000),
  (1464920067602134716409023349991660000000000000000000, 5734821143598208374782269682093706000000000000000000),
  (59286083039382333410908476666173420000000000000000000, 207170026380816514916221199701404600000000000000000000),
  (1612929901378450050262818076630453000000000000000000000, 5031734081722918521304835696426173000000000000000000000),
  (30797086787391647828405854869147370000000000000000000000, 85785698912482836357529111610214800000000000000000000000),
  (428881786226053990103345276746822000000000000000000000000, 1066940136139754632318114671859906000000000000000000000000),
  (4508317655495572606462215765279735000000000000000000000000, 10019179399265578333313765511798950000000000000000000000000),
  (36886092841372724740572154710853120000000000000000000000000, 73256023547821021533079570651809500000000000000000000000000),
  (241426646361612736933017708191147400000000000000000000000000, 428661022830070403591287806576618300000000000000000000000000),
  (1295451630241245491755859623283899000000000000000000000000000, 2057450333314946573820363983027643000000000000000000000000000),
  (5824836249748081362350178404762320000000000000000000000000000, 8280550284168373486135631198183922000000000000000000000000000),
  (22381138266856325748008818687852580000000000000000000000000000, 28502372129039114120049430882992470000000000000000000000000000),
  (74787541554993030262288831079060150000000000000000000000000000, 85405529058095094691510408118958230000000000000000000000000000),
  (220766051668961585458939795750565100000000000000000000000000000, 226342390113383568767068120478684800000000000000000000000000000),
  (583805793656741746753877747043233200000000000000000000000000000, 538119277394471530070207270397830500000000000000000000000000000),
  (1400373324456793789824451537228258000000000000000000000000000000, 1162227371376233122126021116413578000000000000000000000000000000),
  (3080624936604032746897304571163065000000000000000000000000000000, 2305700898586471623027991233236784000000000000000000000000000000),
  (6275399631381952793522562903318516000000000000000000000000000000, 4241834073374029855945885601416598000000000000000000000000000000),
  (11936429854698357575545779319126960000000000000000000000000000000, 7294968834641469476426304200589059000000000000000000000000000000),
  (21351174684243280731904110855878410000000000000000000000000000000, 11804172144718763302680391722078800000000000000000000000000000000),
  (36129133286002695320386895465587090000000000000000000000000000000, 18062120012551775261594786512382410000000000000000000000000000000),
  (58114429738833743604296291440849220000000000000000000000000000000, 26229285923084394043064026818051330000000000000000000000000000000),
  (89203161584178043678677266188420560000000000000000000000000000000, 36231592677350320423936911138014570000000000000000000000000000000),
  (131058349909178286339215369135608800000000000000000000000000000000, 47662801262566317975608684442342150000000000000000000000000000000),
  (184744235477214083088917847593063100000000000000000000000000000000, 59727931418031736671940871172045110000000000000000000000000000000),
  (250343060134984088915020624847884500000000000000000000000000000000, 71272015956493601632259560494201920000000000000000000000000000000),
  (326658117159771913924945251773701800000000000000000000000000000000, 80926953192609275960215867566416290000000000000000000000000000000),
  (411122539429729009187928917586192800000000000000000000000000000000, 87370686727809519583454053790975040000000000000000000000000000000),
  (500000000000000000000000000000000000000000000000000000000000000000, 89636977686594528997111211234484080000000000000000000000000000000),
  (588877460570270990812071082413807200000000000000000000000000000000, 87370686727809519583454053790975040000000000000000000000000000000),
  (673341882840228086075054748226298300000000000000000000000000000000, 80926953192609275960215867566416290000000000000000000000000000000),
  (749656939865015911084979375152115500000000000000000000000000000000, 71272015956493601632259560494201900000000000000000000000000000000),
  (815255764522785916911082152406936900000000000000000000000000000000, 59727931418031736671940871172045110000000000000000000000000000000),
  (868941650090821713660784630864391200000000000000000000000000000000, 47662801262566317975608684442342150000000000000000000000000000000),
  (910796838415821956321322733811579500000000000000000000000000000000, 36231592677350320423936911138014570000000000000000000000000000000),
  (941885570261166256395703708559150800000000000000000000000000000000, 26229285923084394043064026818051330000000000000000000000000000000),
  (963870866713997304679613104534412800000000000000000000000000000000, 18062120012551775261594786512382410000000000000000000000000000000),
  (978648825315756719268095889144121500000000000000000000000000000000, 11804172144718763302680391722078800000000000000000000000000000000),
  (988063570145301642424454220680872900000000000000000000000000000000, 7294968834641469476426304200589059000000000000000000000000000000),
  (993724600368618047206477437096681500000000000000000000000000000000, 4241834073374029855945885601416598000000000000000000000000000000),
  (996919375063395967253102695428836900000000000000000000000000000000, 2305700898586471623027991233236785000000000000000000000000000000),
  (998599626675543206210175548462771800000000000000000000000000000000, 1162227371376233122126021116413578000000000000000000000000000000),
  (999416194206343258253246122252956800000000000000000000000000000000, 538119277394471530070207270397830500000000000000000000000000000),
  (999779233948331038414541060204249500000000000000000000000000000000, 226342390113383568767068120478684800000000000000000000000000000),
  (999925212458445006969737711168920800000000000000000000000000000000, 85405529058095094691510408118958200000000000000000000000000000),
  (999977618861733143674251991181312100000000000000000000000000000000, 28502372129039114120049430882992500000000000000000000000000000),
  (999994175163750251918637649821595400000000000000000000000000000000, 8280550284168373486135631198183922000000000000000000000000000),
  (999998704548369758754508244140376900000000000000000000000000000000, 2057450333314946573820363983027643000000000000000000000000000),
  (999999758573353638387263066982291900000000000000000000000000000000, 428661022830070403591287806576618300000000000000000000000000),
  (999999963113907158627275259427845200000000000000000000000000000000, 73256023547821021533079570651809500000000000000000000000000),
  (999999995491682344504427393537784300000000000000000000000000000000, 10019179399265578333313765511798950000000000000000000000000),
  (999999999571118213773946009896654700000000000000000000000000000000, 1066940136139754632318114671859906000000000000000000000000),
  (999999999969202913212608352171594100000000000000000000000000000000, 85785698912482836357529111610214800000000000000000000000),
  (999999999998387070098621549949737200000000000000000000000000000000, 5031734081722918521304835696426173000000000000000000000),
  (999999999999940713916960617666589100000000000000000000000000000000, 207170026380816514916221199701404500000000000000000000),
  (999999999999998535079932397865283700000000000000000000000000000000, 5734821143598208374782269682093706000000000000000000),
  (999999999999999976813111529383651500000000000000000000000000000000, 101701618646988103975798014940046400000000000000000),
  (999999999999999999777279821116366300000000000000000000000000000000, 1094617444408437491621891677525391000000000000000),
  (999999999999999999998778037342869800000000000000000000000000000000, 6729896351610595347340234178992211000000000000)]

/-- n = 62. quadrature_lib.cpp:6988-7049. -/
def b62 : List (Nat × Nat) := [
  (632361842909765905175804681455350700000000000, 3486022981746221838212643492236419000000000000),
  (116250972650906677506299025131433600000000000000, 572701427676444422593742344692391700000000000000),
  (12276270873305597265133366176335840000000000000000, 54049767300415131738736441458386860000000000000000),
  (790145428291218360264874313313535100000000000000000, 3109323566941951511871611333328643000000000000000000),
  (32682546860130759450944697250739700000000000000000000, 114961162351262990727450298837483600000000000000000000),
  (910854219984087931924600622281722900000000000000000000, 2864287589169835675184759981456299000000000000000000000),
  (17843556624461537478749630204963410000000000000000000000, 50170899531698780007672337974368820000000000000000000000),
  (255177424657152553276057451455372700000000000000000000000, 641657491731001648803539006550678000000000000000000000000),
  (2755638411797601965443635937520972000000000000000000000000, 6198457448052989477830989765243781000000000000000000000000),
  (23161207465437335205380107005563960000000000000000000000000, 46618703933707798804901877502097590000000000000000000000000),
  (155673608833877084273484728766070700000000000000000000000000, 280493586226497556146540866191533000000000000000000000000000),
  (857244739395920409701216584266022500000000000000000000000000, 1383360374928837402399439985600332000000000000000000000000000),
  (3952306580515599055895143227302320000000000000000000000000000, 5715697746694137622959080733630317000000000000000000000000000),
  (15555699282797177483583717759809590000000000000000000000000000, 20175510699944499719712279536478990000000000000000000000000000),
  (53183900308555686617677466237443810000000000000000000000000000, 61920276762929862097800181965283950000000000000000000000000000),
  (160432541646969445457174166691169700000000000000000000000000000, 167858995064465754779992058582117700000000000000000000000000000),
  (432994697352431214465935682972108500000000000000000000000000000, 407658108206619171660704047680827400000000000000000000000000000),
  (1058651693093970425239380482422081000000000000000000000000000000, 898165877999082476802362908877920600000000000000000000000000000),
  (2370822727871039009886881288416239000000000000000000000000000000, 1815328786858828620177808124486349000000000000000000000000000000),
  (4910692384081553618259862768765380000000000000000000000000000000, 3398543236451688512523668232127959000000000000000000000000000000),
  (9487688506688841018032007828069344000000000000000000000000000000, 5942136903519972941835326860565883000000000000000000000000000000),
  (17222922803479870241075192354646690000000000000000000000000000000, 9769046742132696046664326818201336000000000000000000000000000000),
  (29555688552725953407780844879518150000000000000000000000000000000, 15182729982518141636515965714496470000000000000000000000000000000),
  (48190178286601125351454622388022990000000000000000000000000000000, 22395779252825089346433350954962040000000000000000000000000000000),
  (74960512035312149998023410656192540000000000000000000000000000000, 31439302224626632675394185190289620000000000000000000000000000000),
  (111600885570571999791039999217329900000000000000000000000000000000, 42067211147962853948770038062937230000000000000000000000000000000),
  (159428394210210355814521332813510100000000000000000000000000000000, 53683013494221569543251712126883580000000000000000000000000000000),
  (218979786568365114305503230419505500000000000000000000000000000000, 65327756350282916729885491650604320000000000000000000000000000000),
  (289682794650748170020840768522288600000000000000000000000000000000, 75766189532526595341759873536617850000000000000000000000000000000),
  (369669852400270000462262728852109700000000000000000000000000000000, 83684261202784441592758920702757500000000000000000000000000000000),
  (455833648574507728533450014831019800000000000000000000000000000000, 87965489310875496101855752252016700000000000000000000000000000000),
  (544166351425492271466549985168980200000000000000000000000000000000, 87965489310875496101855752252016700000000000000000000000000000000),
  (630330147599729999537737271147890300000000000000000000000000000000, 83684261202784441592758920702757500000000000000000000000000000000),
  (710317205349251829979159231477711400000000000000000000000000000000, 75766189532526595341759873536617850000000000000000000000000000000),
  (781020213431634885694496769580494500000000000000000000000000000000, 65327756350282916729885491650604310000000000000000000000000000000),
  (840571605789789644185478667186489900000000000000000000000000000000, 53683013494221569543251712126883580000000000000000000000000000000),
  (888399114429428000208960000782670200000000000000000000000000000000, 42067211147962853948770038062937230000000000000000000000000000000),
  (925039487964687850001976589343807400000000000000000000000000000000, 31439302224626632675394185190289620000000000000000000000000000000),
  (951809821713398874648545377611977100000000000000000000000000000000, 22395779252825089346433350954962040000000000000000000000000000000),
  (970444311447274046592219155120481700000000000000000000000000000000, 15182729982518141636515965714496470000000000000000000000000000000),
  (982777077196520129758924807645353400000000000000000000000000000000, 9769046742132696046664326818201336000000000000000000000000000000),
  (990512311493311158981967992171930700000000000000000000000000000000, 5942136903519972941835326860565883000000000000000000000000000000),
  (995089307615918446381740137231234600000000000000000000000000000000, 3398543236451688512523668232127959000000000000000000000000000000),
  (997629177272128960990113118711583700000000000000000000000000000000, 1815328786858828620177808124486349000000000000000000000000000000),
  (998941348306906029574760619517577800000000000000000000000000000000, 898165877999082476802362908877920600000000000000000000000000000),
  (999567005302647568785534064317027900000000000000000000000000000000, 407658108206619171660704047680827400000000000000000000000000000),
  (999839567458353030554542825833308800000000000000000000000000000000, 167858995064465754779992058582117700000000000000000000000000000),
  (999946816099691444313382322533762600000000000000000000000000000000, 61920276762929862097800181965283950000000000000000000000000000),
  (999984444300717202822516416282240200000000000000000000000000000000, 20175510699944499719712279536478950000000000000000000000000000),
  (999996047693419484400944104856772600000000000000000000000000000000, 5715697746694137622959080733630316000000000000000000000000000),
  (999999142755260604079590298783415800000000000000000000000000000000, 1383360374928837402399439985600332000000000000000000000000000),
  (999999844326391166122915726515271300000000000000000000000000000000, 280493586226497556146540866191533000000000000000000000000000),
  (999999976838792534562664794619893100000000000000000000000000000000, 46618703933707798804901877502097600000000000000000000000000),
  (999999997244361588202398034556364000000000000000000000000000000000, 6198457448052989477830989765243781000000000000000000000000),
  (999999999744822575342847446723942600000000000000000000000000000000, 641657491731001648803539006550678000000000000000000000000),
  (999999999982156443375538462521250200000000000000000000000000000000, 50170899531698780007672337974368820000000000000000000000),
  (999999999999089145780015912068075500000000000000000000000000000000, 2864287589169835675184759981456299000000000000000000000),
  (999999999999967317453139869240549000000000000000000000000000000000, 114961162351262990727450298837483600000000000000000000),
  (999999999999999209854571708781639800000000000000000000000000000000, 3109323566941951511871611333328643000000000000000000),
  (999999999999999987723729126694402800000000000000000000000000000000, 54049767300415131738736441458386860000000000000000),
  (999999999999999999883749027349093300000000000000000000000000000000, 572701427676444422593742344692391700000000000000),
  (999999999999999999999367638157090200000000000000000000000000000000, 3486022981746221838212643492236419000000000000)]

/-- n = 63. quadrature_lib.cpp:7050-7112. -/
def b63 : List (Nat × Nat) := [
  (327847462035057701522242065100924600000000000, 1809001319742291815919156148067992000000000000),
  (60776383710726405034602784481425940000000000000, 300100732109813822346116092526845900000000000000),
  (6507894571127863398408354120059589000000000000000, 28758415457999386706290856349887060000000000000000),
  (426545270341009170250994184777385400000000000000000, 1687002246552281054916073375911954000000000000000000),
  (18023568506986820385385391740263860000000000000000000, 63805724220456278312636732244605560000000000000000000),
  (514321552077443382930530890327755000000000000000000000, 1629951350378364154441147741193750000000000000000000000),
  (10332361040669423085189426084509430000000000000000000000, 29317460179287191503485155827587600000000000000000000000),
  (151669141087710732859534647758209200000000000000000000000, 385383328986205370395617190818889300000000000000000000000),
  (1681896750386399730220567128204024000000000000000000000000, 3827950348190408155707990958077860000000000000000000000000),
  (14516662600893765683759150335580290000000000000000000000000, 29602784715600060293767197181031260000000000000000000000000),
  (100163727630554627948421962305187600000000000000000000000000, 183077063194623319007672981592326600000000000000000000000000),
  (565894210915258478324440214669895300000000000000000000000000, 927500145156879692746348802325001000000000000000000000000000),
  (2674660252695417651647802856204433000000000000000000000000000, 3933216532718455946483830709273685000000000000000000000000000),
  (10781410631972872367730676967446740000000000000000000000000000, 14235023678375338609677017661107490000000000000000000000000000),
  (37710305134857285278333217913621950000000000000000000000000000, 44742141024110771910947145111699030000000000000000000000000000),
  (116239297935409164078188616784182800000000000000000000000000000, 124059649238471620166565409436610600000000000000000000000000000),
  (320174644129203444265810551310628700000000000000000000000000000, 307758824636799983783430438622457200000000000000000000000000000),
  (797915024174048003938668423713755500000000000000000000000000000, 691705799622826882238408137567438500000000000000000000000000000),
  (1819140371551386287485065598850939000000000000000000000000000000, 1424337018730005708447424147347034000000000000000000000000000000),
  (3831464574448728713539494718253522000000000000000000000000000000, 2713523208674907151256782787075568000000000000000000000000000000),
  (7519240834924466858686870094787375000000000000000000000000000000, 4823209039709785163129434101594428000000000000000000000000000000),
  (13851945603278655108026106984750100000000000000000000000000000000, 8055196778646031863708117711020870000000000000000000000000000000),
  (24105212514102325927928792183632470000000000000000000000000000000, 12712084393519264120887950857658190000000000000000000000000000000),
  (39834258015881088306569741647097520000000000000000000000000000000, 19038926886908873168683290891976900000000000000000000000000000000),
  (62778640844014059230278540983063220000000000000000000000000000000, 27144957487181483329707694658363630000000000000000000000000000000),
  (94682013835517481648871046694711700000000000000000000000000000000, 36914160025165523003445445755297170000000000000000000000000000000),
  (137024691959288651053649289019883300000000000000000000000000000000, 47924719987561198400495582051190550000000000000000000000000000000),
  (190692969899774800100776123450736100000000000000000000000000000000, 59409118517895785795035601433154120000000000000000000000000000000),
  (255644191052400804191773593970329300000000000000000000000000000000, 70291230870044890879548695492907180000000000000000000000000000000),
  (330658583332963702162187148923401200000000000000000000000000000000, 79324625692597769684307930979843920000000000000000000000000000000),
  (413278008454633322252003358624351900000000000000000000000000000000, 85322840086664817404030704277597710000000000000000000000000000000),
  (500000000000000000000000000000000000000000000000000000000000000000, 87426981855253367357033006674076340000000000000000000000000000000),
  (586721991545366677747996641375648200000000000000000000000000000000, 85322840086664817404030704277597710000000000000000000000000000000),
  (669341416667036297837812851076598800000000000000000000000000000000, 79324625692597769684307930979843920000000000000000000000000000000),
  (744355808947599195808226406029670900000000000000000000000000000000, 70291230870044890879548695492907180000000000000000000000000000000),
  (809307030100225199899223876549263900000000000000000000000000000000, 59409118517895785795035601433154120000000000000000000000000000000),
  (862975308040711348946350710980116900000000000000000000000000000000, 47924719987561198400495582051190520000000000000000000000000000000),
  (905317986164482518351128953305288400000000000000000000000000000000, 36914160025165523003445445755297180000000000000000000000000000000),
  (937221359155985940769721459016936700000000000000000000000000000000, 27144957487181483329707694658363630000000000000000000000000000000),
  (960165741984118911693430258352902600000000000000000000000000000000, 19038926886908873168683290891976900000000000000000000000000000000),
  (975894787485897674072071207816367600000000000000000000000000000000, 12712084393519264120887950857658190000000000000000000000000000000),
  (986148054396721344891973893015249900000000000000000000000000000000, 8055196778646031863708117711020870000000000000000000000000000000),
  (992480759165075533141313129905212700000000000000000000000000000000, 4823209039709785163129434101594428000000000000000000000000000000),
  (996168535425551271286460505281746500000000000000000000000000000000, 2713523208674907151256782787075567000000000000000000000000000000),
  (998180859628448613712514934401149200000000000000000000000000000000, 1424337018730005708447424147347034000000000000000000000000000000),
  (999202084975825951996061331576286200000000000000000000000000000000, 691705799622826882238408137567438500000000000000000000000000000),
  (999679825355870796555734189448689300000000000000000000000000000000, 307758824636799983783430438622457200000000000000000000000000000),
  (999883760702064590835921811383215700000000000000000000000000000000, 124059649238471620166565409436610600000000000000000000000000000),
  (999962289694865142714721666782086400000000000000000000000000000000, 44742141024110771910947145111699030000000000000000000000000000),
  (999989218589368027127632269323032500000000000000000000000000000000, 14235023678375338609677017661107540000000000000000000000000000),
  (999997325339747304582348352197143800000000000000000000000000000000, 3933216532718455946483830709273685000000000000000000000000000),
  (999999434105789084741521675559785300000000000000000000000000000000, 927500145156879692746348802325001000000000000000000000000000),
  (999999899836272369445372051578037700000000000000000000000000000000, 183077063194623319007672981592326600000000000000000000000000),
  (999999985483337399106234316240849800000000000000000000000000000000, 29602784715600060293767197181031260000000000000000000000000),
  (999999998318103249613600269779432900000000000000000000000000000000, 3827950348190408155707990958077860000000000000000000000000),
  (999999999848330858912289267140465300000000000000000000000000000000, 385383328986205370395617190818889300000000000000000000000),
  (999999999989667638959330576914810500000000000000000000000000000000, 29317460179287191503485155827587600000000000000000000000),
  (999999999999485678447922556617069400000000000000000000000000000000, 1629951350378364154441147741193750000000000000000000000),
  (999999999999981976431493013179614700000000000000000000000000000000, 63805724220456278312636732244605570000000000000000000),
  (999999999999999573454729658990829800000000000000000000000000000000, 1687002246552281054916073375911954000000000000000000),
  (999999999999999993492105428872136500000000000000000000000000000000, 28758415457999386706290856349887240000000000000000),
  (999999999999999999939223616289273600000000000000000000000000000000, 300100732109813822346116092526845900000000000000),
  (999999999999999999999672152537965000000000000000000000000000000000, 1809001319742291815919156148067992000000000000)]

/-- n = 64. quadrature_lib.cpp:7113-7176. -/
def b64 : List (Nat × Nat) := [
  (170278602158118177217391427918463700000000000, 940412567576547627093279155689546600000000000),
  (31824520339079735456847062931019460000000000000, 157495244666219914612486447336527000000000000000),
  (3454282143734050733901736851435679000000000000000, 15319207941540937283344383544625960000000000000000),
  (230455952438495869396066596340126600000000000000000, 915949128518214745509143820559246400000000000000000),
  (9943373901291156702986276969964838000000000000000000, 35421092331612355060293970194505540000000000000000000),
  (290392676446032564221560715127208500000000000000000000, 927274213595248530183816551305855200000000000000000000),
  (5979739629162995986457292701229568000000000000000000000, 17118308745871325203524995604850390000000000000000000000),
  (90058634688406224287362337099871080000000000000000000000, 231172824588899108825055881912898300000000000000000000000),
  (1025114098312239577086668102512306000000000000000000000000, 2359999784693751143922638309389544000000000000000000000000),
  (9082559206399755191977777958508063000000000000000000000000, 18758367774408813303509009967826850000000000000000000000000),
  (64313441325367475590117832175053790000000000000000000000000, 119201877296505248232900909208764900000000000000000000000000),
  (372685652916021045966830327826913100000000000000000000000000, 620156924133504802918279914669803200000000000000000000000000),
  (1805372929932551724292963508829924000000000000000000000000000, 2698547994293628910537730500564064000000000000000000000000000),
  (7451908630397702119507527271399403000000000000000000000000000, 10011860292396413617907447246789810000000000000000000000000000),
  (26662030716303481648423112493466830000000000000000000000000000, 32223084962658691838839036072494720000000000000000000000000000),
  (83972075080575796611364614229638700000000000000000000000000000, 91379643601046575112672151098839560000000000000000000000000000),
  (236047384926351417418689528606889100000000000000000000000000000, 231549730670811659804999055376571300000000000000000000000000000),
  (599610905330408900057165443708128200000000000000000000000000000, 530892271780462322660651427597783700000000000000000000000000000),
  (1391727084837214015715341417024577000000000000000000000000000000, 1113774868615797027288604012662709000000000000000000000000000000),
  (2980729943054310895589256861996834000000000000000000000000000000, 2159254920843744299592564699008457000000000000000000000000000000),
  (5942023756672314954738150951119089000000000000000000000000000000, 3901609795540546160823771019117789000000000000000000000000000000),
  (11108632275919975522097539961844700000000000000000000000000000000, 6618610807156762087259601965122089000000000000000000000000000000),
  (19602249650296774872959459128664990000000000000000000000000000000, 10603663735515391152574532989424640000000000000000000000000000000),
  (32827097836171591710998863692134720000000000000000000000000000000, 16118944256567603848574985500689240000000000000000000000000000000),
  (52407086826295114845699306104911930000000000000000000000000000000, 23329140368006141934614504461861880000000000000000000000000000000),
  (80048760015180513095475759029880050000000000000000000000000000000, 32220740025884093196299305123758340000000000000000000000000000000),
  (117321621002367088411099849787684100000000000000000000000000000000, 42520722576955288584259642547462270000000000000000000000000000000),
  (165366773825905733548673575701688500000000000000000000000000000000, 53639500064703604377504026922755930000000000000000000000000000000),
  (224574157851506573236840521580730200000000000000000000000000000000, 64670801402493489688328175092425120000000000000000000000000000000),
  (294300880897587101964902850063944500000000000000000000000000000000, 74477626648719565844785587273598050000000000000000000000000000000),
  (372722987511491494364896584601031800000000000000000000000000000000, 81871543541562953856362624577420430000000000000000000000000000000),
  (456902142275162249015850084746975100000000000000000000000000000000, 85854551121709599469701456451023570000000000000000000000000000000),
  (543097857724837750984149915253024900000000000000000000000000000000, 85854551121709599469701456451023570000000000000000000000000000000),
  (627277012488508505635103415398968100000000000000000000000000000000, 81871543541562953856362624577420430000000000000000000000000000000),
  (705699119102412898035097149936055600000000000000000000000000000000, 74477626648719565844785587273598050000000000000000000000000000000),
  (775425842148493426763159478419269800000000000000000000000000000000, 64670801402493489688328175092425120000000000000000000000000000000),
  (834633226174094266451326424298311600000000000000000000000000000000, 53639500064703604377504026922755930000000000000000000000000000000),
  (882678378997632911588900150212315900000000000000000000000000000000, 42520722576955288584259642547462270000000000000000000000000000000),
  (919951239984819486904524240970120000000000000000000000000000000000, 32220740025884093196299305123758340000000000000000000000000000000),
  (947592913173704885154300693895088000000000000000000000000000000000, 23329140368006141934614504461861880000000000000000000000000000000),
  (967172902163828408289001136307865300000000000000000000000000000000, 16118944256567603848574985500689240000000000000000000000000000000),
  (980397750349703225127040540871335100000000000000000000000000000000, 10603663735515391152574532989424640000000000000000000000000000000),
  (988891367724080024477902460038155300000000000000000000000000000000, 6618610807156762087259601965122089000000000000000000000000000000),
  (994057976243327685045261849048880900000000000000000000000000000000, 3901609795540546160823771019117786000000000000000000000000000000),
  (997019270056945689104410743138003000000000000000000000000000000000, 2159254920843744299592564699008456000000000000000000000000000000),
  (998608272915162785984284658582975500000000000000000000000000000000, 1113774868615797027288604012662709000000000000000000000000000000),
  (999400389094669591099942834556291800000000000000000000000000000000, 530892271780462322660651427597783700000000000000000000000000000),
  (999763952615073648582581310471393100000000000000000000000000000000, 231549730670811659804999055376571300000000000000000000000000000),
  (999916027924919424203388635385770300000000000000000000000000000000, 91379643601046575112672151098839690000000000000000000000000000),
  (999973337969283696518351576887506600000000000000000000000000000000, 32223084962658691838839036072494770000000000000000000000000000),
  (999992548091369602297880492472728600000000000000000000000000000000, 10011860292396413617907447246789790000000000000000000000000000),
  (999998194627070067448275707036491200000000000000000000000000000000, 2698547994293628910537730500564064000000000000000000000000000),
  (999999627314347083978954033169672200000000000000000000000000000000, 620156924133504802918279914669803200000000000000000000000000),
  (999999935686558674632524409882167700000000000000000000000000000000, 119201877296505248232900909208764900000000000000000000000000),
  (999999990917440793600244808022222000000000000000000000000000000000, 18758367774408813303509009967826850000000000000000000000000),
  (999999998974885901687760422913331900000000000000000000000000000000, 2359999784693751143922638309389537000000000000000000000000),
  (999999999909941365311593775712637700000000000000000000000000000000, 231172824588899108825055881912898300000000000000000000000),
  (999999999994020260370837004013542700000000000000000000000000000000, 17118308745871325203524995604850390000000000000000000000),
  (999999999999709607323553967435778400000000000000000000000000000000, 927274213595248530183816551305854900000000000000000000),
  (999999999999990056626098708843297100000000000000000000000000000000, 35421092331612355060293970194505540000000000000000000),
  (999999999999999769544047561504130700000000000000000000000000000000, 915949128518214745509143820559246600000000000000000),
  (999999999999999996545717856265949200000000000000000000000000000000, 15319207941540937283344383544625960000000000000000),
  (999999999999999999968175479660920300000000000000000000000000000000, 157495244666219914612486447336526000000000000000),
  (999999999999999999999829721397841900000000000000000000000000000000, 940412567576547627093279155689552200000000000)]

/-- n = 65. quadrature_lib.cpp:7177-7241. -/
def b65 : List (Nat × Nat) := [
  (88596105115995670425020684528868560000000000, 489726452752402521946174959205076100000000000),
  (16690353291387934998164048915203790000000000000, 82778673737446255242207415701443330000000000000),
  (1835742025550960839611027537520202000000000000000, 8169640838971768409908521200854186000000000000000),
  (124616320496491179384614184968485100000000000000000, 497662475394434999575096540172227100000000000000000),
  (5487830753767541615612228483800101000000000000000000, 19668305197174910700486971925947720000000000000000000),
  (163950810547796756961706773975754900000000000000000000, 527391031514952308009172826514609800000000000000000000),
  (3458970032322852512970877391248611000000000000000000000, 9987961625280713648306929715498688000000000000000000000),
  (53425481170547859296098178085825110000000000000000000000, 138503681943078088823986247791053700000000000000000000000),
  (623973555161565848487666650223811600000000000000000000000, 1452616892591231581887213805228357000000000000000000000000),
  (5673007478794715871006893665682987000000000000000000000000, 11862628447948386209047075156141330000000000000000000000000),
  (41211457393532623536235890929268430000000000000000000000000, 77429298581170972907341866077239690000000000000000000000000),
  (244881825514862381480501925761995000000000000000000000000000, 413555179661957389958809092348317100000000000000000000000000),
  (1215553908350404641611664219949498000000000000000000000000000, 1846080257355107096607227759831411000000000000000000000000000),
  (5136795703609998698348839586267400000000000000000000000000000, 7019832224980527299135149323416877000000000000000000000000000),
  (18797673743042507140635556875582640000000000000000000000000000, 23132011217944198621159196139480860000000000000000000000000000),
  (60486638483298173412971061918118620000000000000000000000000000, 67085278828212399425539470713798910000000000000000000000000000),
  (173515125027561951726805087213338500000000000000000000000000000, 173628019526659385319635771466086800000000000000000000000000000),
  (449269431014003166365047205276173300000000000000000000000000000, 406098727316713014211842754875963000000000000000000000000000000),
  (1061637137391285641657736847000710000000000000000000000000000000, 868019510480447585308038071683744400000000000000000000000000000),
  (2312223487283723071749940333965373000000000000000000000000000000, 1712490470196578182496997676588331000000000000000000000000000000),
  (4682287776702420979083320170135533000000000000000000000000000000, 3145570477488879748025501697478832000000000000000000000000000000),
  (8883394946535719114156761246653358000000000000000000000000000000, 5419678741568088760341355122578504000000000000000000000000000000),
  (15894920112030916811868465658125280000000000000000000000000000000, 8813322623438408797573277672488114000000000000000000000000000000),
  (26973135732338394788602410106319720000000000000000000000000000000, 13594120538644808385534158557126020000000000000000000000000000000),
  (43614266448477737675385741767668050000000000000000000000000000000, 19963702808472945215224654377606840000000000000000000000000000000),
  (67454100651783966177854481906129340000000000000000000000000000000, 27986767308646652794716573251448320000000000000000000000000000000),
  (100092146431068643149398721038479000000000000000000000000000000000, 37513361867728607922204281971088250000000000000000000000000000000),
  (142842004731250041518982613242886600000000000000000000000000000000, 48112981873703882238196478635970300000000000000000000000000000000),
  (196432999156975410548621036392039100000000000000000000000000000000, 59048093732106717367996735053232140000000000000000000000000000000),
  (260717659514708167126337784794486900000000000000000000000000000000, 69316781307281348507292309276717440000000000000000000000000000000),
  (334464692962145740057428532325037600000000000000000000000000000000, 77782057213203876156892696045961260000000000000000000000000000000),
  (415321434138281315842217432060480600000000000000000000000000000000, 83376550364749022605077010794718800000000000000000000000000000000),
  (500000000000000000000000000000000000000000000000000000000000000000, 85334373528310157225419583703635190000000000000000000000000000000),
  (584678565861718684157782567939519400000000000000000000000000000000, 83376550364749022605077010794718800000000000000000000000000000000),
  (665535307037854259942571467674962300000000000000000000000000000000, 77782057213203876156892696045961260000000000000000000000000000000),
  (739282340485291832873662215205513200000000000000000000000000000000, 69316781307281348507292309276717440000000000000000000000000000000),
  (803567000843024589451378963607961000000000000000000000000000000000, 59048093732106717367996735053232140000000000000000000000000000000),
  (857157995268749958481017386757113500000000000000000000000000000000, 48112981873703882238196478635970300000000000000000000000000000000),
  (899907853568931356850601278961520900000000000000000000000000000000, 37513361867728607922204281971088250000000000000000000000000000000),
  (932545899348216033822145518093870600000000000000000000000000000000, 27986767308646652794716573251448320000000000000000000000000000000),
  (956385733551522262324614258232332000000000000000000000000000000000, 19963702808472945215224654377606840000000000000000000000000000000),
  (973026864267661605211397589893680200000000000000000000000000000000, 13594120538644808385534158557126020000000000000000000000000000000),
  (984105079887969083188131534341874800000000000000000000000000000000, 8813322623438408797573277672488113000000000000000000000000000000),
  (991116605053464280885843238753346700000000000000000000000000000000, 5419678741568088760341355122578504000000000000000000000000000000),
  (995317712223297579020916679829864500000000000000000000000000000000, 3145570477488879748025501697478830000000000000000000000000000000),
  (997687776512716276928250059666034700000000000000000000000000000000, 1712490470196578182496997676588331000000000000000000000000000000),
  (998938362862608714358342263152999200000000000000000000000000000000, 868019510480447585308038071683744400000000000000000000000000000),
  (999550730568985996833634952794723800000000000000000000000000000000, 406098727316713014211842754875963000000000000000000000000000000),
  (999826484874972438048273194912786600000000000000000000000000000000, 173628019526659385319635771466086800000000000000000000000000000),
  (999939513361516701826587028938081900000000000000000000000000000000, 67085278828212399425539470713798910000000000000000000000000000),
  (999981202326256957492859364443124400000000000000000000000000000000, 23132011217944198621159196139480890000000000000000000000000000),
  (999994863204296390001301651160413600000000000000000000000000000000, 7019832224980527299135149323416875000000000000000000000000000),
  (999998784446091649595358388335780200000000000000000000000000000000, 1846080257355107096607227759831411000000000000000000000000000),
  (999999755118174485137618519498074200000000000000000000000000000000, 413555179661957389958809092348317100000000000000000000000000),
  (999999958788542606467376463764109100000000000000000000000000000000, 77429298581170972907341866077239690000000000000000000000000),
  (999999994326992521205284128993106300000000000000000000000000000000, 11862628447948386209047075156141360000000000000000000000000),
  (999999999376026444838434151512333300000000000000000000000000000000, 1452616892591231581887213805228357000000000000000000000000),
  (999999999946574518829452140703901900000000000000000000000000000000, 138503681943078088823986247791053700000000000000000000000),
  (999999999996541029967677147487029100000000000000000000000000000000, 9987961625280713648306929715498688000000000000000000000),
  (999999999999836049189452203243038300000000000000000000000000000000, 527391031514952308009172826514609800000000000000000000),
  (999999999999994512169246232458384300000000000000000000000000000000, 19668305197174910700486971925947720000000000000000000),
  (999999999999999875383679503508820500000000000000000000000000000000, 497662475394434999575096540172227100000000000000000),
  (999999999999999998164257974449039200000000000000000000000000000000, 8169640838971768409908521200854185000000000000000),
  (999999999999999999983309646708612100000000000000000000000000000000, 82778673737446255242207415701443330000000000000),
  (999999999999999999999911403894884000000000000000000000000000000000, 489726452752402521946174959205076100000000000)]

/-- n = 66. quadrature_lib.cpp:7242-7307. -/
def b66 : List (Nat × Nat) := [
  (46176420837241663451918033193070190000000000, 255463894022575737170860006594639900000000000),
  (8766658906419796545685071156626467000000000000, 43572195060841503395690913625640190000000000000),
  (976777000302733431062785587618313500000000000000, 4361742005211049989885852165324490000000000000000),
  (67441219734499671357715462142353550000000000000000, 270587582565971781462899832819140800000000000000000),
  (3030030403257730704879713424046913000000000000000000, 10924029243395630709058888884198190000000000000000000),
  (92561342099803521677330104350327030000000000000000000, 299890651670253238150417667791710500000000000000000000),
  (1999905874013588432951588002433533000000000000000000000, 5823642869500666760509632941583368000000000000000000000),
  (31665569284111826280382313820209920000000000000000000000, 82888028318961061665162434545869330000000000000000000000),
  (379319853374965113943004044897064800000000000000000000000, 892715074131782467499708534772196700000000000000000000000),
  (3537601731891023917589635764935980000000000000000000000000, 7487248601696756925152510841455602000000000000000000000000),
  (26356480389282174276629706203190190000000000000000000000000, 50180431386049461677656441573796790000000000000000000000000),
  (160548256137338176623180376632686600000000000000000000000000, 275070436134969819729477611652239700000000000000000000000000),
  (816429449173914454360405671649333000000000000000000000000000, 1259339654812706516834458980542684000000000000000000000000000),
  (3531641060369465576416978096138014000000000000000000000000000, 4907113045526993066337206806778252000000000000000000000000000),
  (13216517703271049521863352394072770000000000000000000000000000, 16553312674076501233292496828996940000000000000000000000000000),
  (43445830594070716200426267914557610000000000000000000000000000, 49089637476116458986214022721375270000000000000000000000000000),
  (127180235536754277549601646355717500000000000000000000000000000, 129765612003379980669670400242802200000000000000000000000000000),
  (335647942039612753909301053687658000000000000000000000000000000, 309611367847389242414990750929922600000000000000000000000000000),
  (807505506899488934053004984280098200000000000000000000000000000, 674260885723295831949237618311694000000000000000000000000000000),
  (1788541573961279033233784440392656000000000000000000000000000000, 1353716264616135299549000827330134000000000000000000000000000000),
  (3679252676286988767533579490497207000000000000000000000000000000, 2527732717850603710270190639958973000000000000000000000000000000),
  (7084106201350823659396353303151374000000000000000000000000000000, 4423206664840697821230979072174822000000000000000000000000000000),
  (12852730366395076957473646426083510000000000000000000000000000000, 7300089346745060512068873175899885000000000000000000000000000000),
  (22099989095594394228376171889066460000000000000000000000000000000, 11422797324972413592995468980986560000000000000000000000000000000),
  (36189316391039184722084020150620000000000000000000000000000000000, 17015137320348511718671951140897700000000000000000000000000000000),
  (56662784032373921873456393826974970000000000000000000000000000000, 24199260856568427824545544885605030000000000000000000000000000000),
  (85104149073509307379937051812459460000000000000000000000000000000, 32924161710132922473195180170517690000000000000000000000000000000),
  (122930336736024168647524836086354700000000000000000000000000000000, 42897025383037769421191480987785360000000000000000000000000000000),
  (171124616173247659181718178558252300000000000000000000000000000000, 53539610584129425691890845564787810000000000000000000000000000000),
  (229950132399249994278322559570419100000000000000000000000000000000, 63997177555411884876272253006341020000000000000000000000000000000),
  (298708687382230195989487306170371700000000000000000000000000000000, 73222681566544183090372369304611500000000000000000000000000000000),
  (375623820617708690917934386199715800000000000000000000000000000000, 80139266600838900823208907239481470000000000000000000000000000000),
  (457915002697473100047496774937390100000000000000000000000000000000, 83852355115684507719351970830300330000000000000000000000000000000),
  (542084997302526899952503225062609900000000000000000000000000000000, 83852355115684507719351970830300330000000000000000000000000000000),
  (624376179382291309082065613800284200000000000000000000000000000000, 80139266600838900823208907239481470000000000000000000000000000000),
  (701291312617769804010512693829628200000000000000000000000000000000, 73222681566544183090372369304611500000000000000000000000000000000),
  (770049867600750005721677440429581000000000000000000000000000000000, 63997177555411884876272253006341020000000000000000000000000000000),
  (828875383826752340818281821441747800000000000000000000000000000000, 53539610584129425691890845564787800000000000000000000000000000000),
  (877069663263975831352475163913645300000000000000000000000000000000, 42897025383037769421191480987785360000000000000000000000000000000),
  (914895850926490692620062948187540500000000000000000000000000000000, 32924161710132922473195180170517690000000000000000000000000000000),
  (943337215967626078126543606173025100000000000000000000000000000000, 24199260856568427824545544885605030000000000000000000000000000000),
  (963810683608960815277915979849380100000000000000000000000000000000, 17015137320348511718671951140897700000000000000000000000000000000),
  (977900010904405605771623828110933500000000000000000000000000000000, 11422797324972413592995468980986560000000000000000000000000000000),
  (987147269633604923042526353573916400000000000000000000000000000000, 7300089346745060512068873175899885000000000000000000000000000000),
  (992915893798649176340603646696848600000000000000000000000000000000, 4423206664840697821230979072174822000000000000000000000000000000),
  (996320747323713011232466420509502900000000000000000000000000000000, 2527732717850603710270190639958971000000000000000000000000000000),
  (998211458426038720966766215559607300000000000000000000000000000000, 1353716264616135299549000827330134000000000000000000000000000000),
  (999192494493100511065946995015720000000000000000000000000000000000, 674260885723295831949237618311694000000000000000000000000000000),
  (999664352057960387246090698946312400000000000000000000000000000000, 309611367847389242414990750929922600000000000000000000000000000),
  (999872819764463245722450398353644300000000000000000000000000000000, 129765612003379980669670400242802200000000000000000000000000000),
  (999956554169405929283799573732085400000000000000000000000000000000, 49089637476116458986214022721375270000000000000000000000000000),
  (999986783482296728950478136647605900000000000000000000000000000000, 16553312674076501233292496828996940000000000000000000000000000),
  (999996468358939630534423583021903900000000000000000000000000000000, 4907113045526993066337206806778252000000000000000000000000000),
  (999999183570550826085545639594328200000000000000000000000000000000, 1259339654812706516834458980542684000000000000000000000000000),
  (999999839451743862661823376819623300000000000000000000000000000000, 275070436134969819729477611652239700000000000000000000000000),
  (999999973643519610717825723370293900000000000000000000000000000000, 50180431386049461677656441573796790000000000000000000000000),
  (999999996462398268108976082410364300000000000000000000000000000000, 7487248601696756925152510841455602000000000000000000000000),
  (999999999620680146625034886056996000000000000000000000000000000000, 892715074131782467499708534772196700000000000000000000000),
  (999999999968334430715888173719617700000000000000000000000000000000, 82888028318961061665162434545869580000000000000000000000),
  (999999999998000094125986411567048500000000000000000000000000000000, 5823642869500666760509632941583368000000000000000000000),
  (999999999999907438657900196478322500000000000000000000000000000000, 299890651670253238150417667791710600000000000000000000),
  (999999999999996969969596742269295100000000000000000000000000000000, 10924029243395630709058888884198190000000000000000000),
  (999999999999999932558780265500328600000000000000000000000000000000, 270587582565971781462899832819140800000000000000000),
  (999999999999999999023222999697266600000000000000000000000000000000, 4361742005211049989885852165324489000000000000000),
  (999999999999999999991233341093580200000000000000000000000000000000, 43572195060841503395690913625640450000000000000),
  (999999999999999999999953823579162700000000000000000000000000000000, 255463894022575737170860006594639900000000000)]

/-- n = 67. quadrature_lib.cpp:7308-7374. -/
def b67 : List (Nat × Nat) := [
  (24108062104171858220684734246758660000000000, 133484872719306607870604427667896000000000000),
  (4611648735977237003689357929085317000000000000, 22968360250652084779351063863254990000000000000),
  (520358457863272898436228263294629200000000000000, 2331322791909591922797967553587181000000000000000),
  (36529063529380571291365385417014510000000000000000, 147228381365295835356559425799636100000000000000000),
  (1673699788084456212698112988392830000000000000000000, 6069003111237199017431808731080702000000000000000000),
  (52256994602962668040467560364334980000000000000000000, 170495346681087833180365473266184600000000000000000000),
  (1155809162531578387008162516552106000000000000000000000, 3393390191107370173407587847336154000000000000000000000),
  (18752614474990368490846268493556010000000000000000000000, 49550993233024635309531908048868300000000000000000000000),
  (230310483853267070374657655075498800000000000000000000000, 547804092183376807725600050789778600000000000000000000000),
  (2202524855658885416880014913076621000000000000000000000000, 4716826010991586124239607464949151000000000000000000000000),
  (16824317195168722415989661064394230000000000000000000000000, 32449120431519215863654288778375950000000000000000000000000),
  (105031057206980370503322417491585500000000000000000000000000, 182501445281544332678317710363331900000000000000000000000000),
  (547050998771921458867337738816492800000000000000000000000000, 856722223535545875282170605981892000000000000000000000000000),
  (2421846561212401368897302380169367000000000000000000000000000, 3420143412329742245647286365084222000000000000000000000000000),
  (9267365174399888182068670824636925000000000000000000000000000, 11808937809187616029549415081039590000000000000000000000000000),
  (31118768884311941944330019502828320000000000000000000000000000, 35806615592214621664325471279810110000000000000000000000000000),
  (92953248310323509503759729476419390000000000000000000000000000, 96668802886447598918546478421434230000000000000000000000000000),
  (250043989583901790472957999849578700000000000000000000000000000, 235278315813916605789964836434221500000000000000000000000000000),
  (612456755097968282728573535315466900000000000000000000000000000, 522048704304867103450296927072128300000000000000000000000000000),
  (1379565758141941147304344698305855000000000000000000000000000000, 1066649230166746591598480533779234000000000000000000000000000000),
  (2883047848202231490552994025414628000000000000000000000000000000, 2024711898035255487080400972376648000000000000000000000000000000),
  (5633719307676602111913637905915214000000000000000000000000000000, 3598256543314538659923463653993138000000000000000000000000000000),
  (10364296132853292925881969138770680000000000000000000000000000000, 6026590170193517699848638099569128000000000000000000000000000000),
  (18057046743168341508460908458491580000000000000000000000000000000, 9564742695110378941142162301459896000000000000000000000000000000),
  (29942662954031661509649565581249780000000000000000000000000000000, 14447187365440330689838824365844470000000000000000000000000000000),
  (47455133642722857663108869186639210000000000000000000000000000000, 20836250694478919923213050165263240000000000000000000000000000000),
  (72128395192938089508624687274567710000000000000000000000000000000, 28758180972973818840193801785484900000000000000000000000000000000),
  (105426346045921055703734328421004800000000000000000000000000000000, 38035958722962804104610134347287150000000000000000000000000000000),
  (148510812863229627513194246392441200000000000000000000000000000000, 48235905269776203935419690363200230000000000000000000000000000000),
  (201972807458734123646094472529547900000000000000000000000000000000, 58651949734243235079416009522315890000000000000000000000000000000),
  (265577211189077604923703606381131400000000000000000000000000000000, 68351689355481846741168969174906650000000000000000000000000000000),
  (338090443113548798449132811042482500000000000000000000000000000000, 76296642101678339064111483659321260000000000000000000000000000000),
  (417261596240911064636034095284866500000000000000000000000000000000, 81524318800550992256439897022483120000000000000000000000000000000),
  (500000000000000000000000000000000000000000000000000000000000000000, 83349715870467319113559149332625870000000000000000000000000000000),
  (582738403759088935363965904715133400000000000000000000000000000000, 81524318800550992256439897022483120000000000000000000000000000000),
  (661909556886451201550867188957517400000000000000000000000000000000, 76296642101678339064111483659321260000000000000000000000000000000),
  (734422788810922395076296393618868600000000000000000000000000000000, 68351689355481846741168969174906650000000000000000000000000000000),
  (798027192541265876353905527470452200000000000000000000000000000000, 58651949734243235079416009522315890000000000000000000000000000000),
  (851489187136770372486805753607558800000000000000000000000000000000, 48235905269776203935419690363200230000000000000000000000000000000),
  (894573653954078944296265671578995200000000000000000000000000000000, 38035958722962804104610134347287150000000000000000000000000000000),
  (927871604807061910491375312725432400000000000000000000000000000000, 28758180972973818840193801785484900000000000000000000000000000000),
  (952544866357277142336891130813360700000000000000000000000000000000, 20836250694478919923213050165263240000000000000000000000000000000),
  (970057337045968338490350434418750300000000000000000000000000000000, 14447187365440330689838824365844470000000000000000000000000000000),
  (981942953256831658491539091541508400000000000000000000000000000000, 9564742695110378941142162301459896000000000000000000000000000000),
  (989635703867146707074118030861229300000000000000000000000000000000, 6026590170193517699848638099569128000000000000000000000000000000),
  (994366280692323397888086362094084800000000000000000000000000000000, 3598256543314538659923463653993138000000000000000000000000000000),
  (997116952151797768509447005974585300000000000000000000000000000000, 2024711898035255487080400972376648000000000000000000000000000000),
  (998620434241858058852695655301694200000000000000000000000000000000, 1066649230166746591598480533779234000000000000000000000000000000),
  (999387543244902031717271426464684500000000000000000000000000000000, 522048704304867103450296927072128300000000000000000000000000000),
  (999749956010416098209527042000150400000000000000000000000000000000, 235278315813916605789964836434221600000000000000000000000000000),
  (999907046751689676490496240270523500000000000000000000000000000000, 96668802886447598918546478421434230000000000000000000000000000),
  (999968881231115688058055669980497200000000000000000000000000000000, 35806615592214621664325471279810110000000000000000000000000000),
  (999990732634825600111817931329175400000000000000000000000000000000, 11808937809187616029549415081039590000000000000000000000000000),
  (999997578153438787598631102697619900000000000000000000000000000000, 3420143412329742245647286365084222000000000000000000000000000),
  (999999452949001228078541132662261100000000000000000000000000000000, 856722223535545875282170605981892000000000000000000000000000),
  (999999894968942793019629496677582600000000000000000000000000000000, 182501445281544332678317710363331900000000000000000000000000),
  (999999983175682804831277584010338900000000000000000000000000000000, 32449120431519215863654288778375950000000000000000000000000),
  (999999997797475144341114583119985100000000000000000000000000000000, 4716826010991586124239607464949151000000000000000000000000),
  (999999999769689516146732929625342400000000000000000000000000000000, 547804092183376807725600050789778600000000000000000000000),
  (999999999981247385525009631509153700000000000000000000000000000000, 49550993233024635309531908048868300000000000000000000000),
  (999999999998844190837468421612991800000000000000000000000000000000, 3393390191107370173407587847336153000000000000000000000),
  (999999999999947743005397037331959500000000000000000000000000000000, 170495346681087833180365473266184600000000000000000000),
  (999999999999998326300211915543787400000000000000000000000000000000, 6069003111237199017431808731080702000000000000000000),
  (999999999999999963470936470619428800000000000000000000000000000000, 147228381365295835356559425799636100000000000000000),
  (999999999999999999479641542136727200000000000000000000000000000000, 2331322791909591922797967553587181000000000000000),
  (999999999999999999995388351264022700000000000000000000000000000000, 22968360250652084779351063863254990000000000000),
  (999999999999999999999975891937895800000000000000000000000000000000, 133484872719306607870604427667896000000000000)]

/-- n = 68. quadrature_lib.cpp:7375-7442. -/
def b68 : List (Nat × Nat) := [
  (12607429518899290998873571054624080000000000, 69863019189721396351384844473162820000000000),
  (2429521863769766112676909179279640000000000000, 12124672629558501808115182234723430000000000000),
  (277540786786367881504852226794540600000000000000, 1247456343373832603517346657418394000000000000000),
  (19802191945046079940286803634198090000000000000000, 80165393988331213051552550264178000000000000000000),
  (924904714751287798585322118461359400000000000000000, 3372698960540604224655950901512461000000000000000000),
  (29503114193586977350779679944058630000000000000000000, 96915792835536492277981479987025310000000000000000000),
  (667715326609186986992759351361219000000000000000000000, 1976115996909638110944856884063992000000000000000000000),
  (11096627977329408108011777042403160000000000000000000000, 29591433370702186291181260316010130000000000000000000000),
  (139673166762569519279184951265960400000000000000000000000, 335671999281095585924883231991170300000000000000000000000),
  (1369222101599578540702408644962238000000000000000000000000, 2966152045588296474539890815369734000000000000000000000000),
  (10719994863794017528682316756523700000000000000000000000000, 20938351336555308444889090269732630000000000000000000000000),
  (68567794779387365141211772911078530000000000000000000000000, 120790571330318529881612236031210700000000000000000000000000),
  (365703129377122479056253876663558000000000000000000000000000, 581265115737732676675478069451205900000000000000000000000000),
  (1656641093887647467967607936826753000000000000000000000000000, 2376908869925501637314125519087654000000000000000000000000000),
  (6481058084265131725091783000572315000000000000000000000000000, 8398854572047250875955828106179139000000000000000000000000000),
  (22228184259482284468274915688693970000000000000000000000000000, 26035961465033925079638222182843440000000000000000000000000000),
  (67747133349067145243403516579175920000000000000000000000000000, 71783189735765623543759829934962210000000000000000000000000000),
  (185746211236725714572082371844842000000000000000000000000000000, 178215859667778562015417456615108600000000000000000000000000000),
  (463211337536001083183722141425233900000000000000000000000000000, 402899129455456723051997497713726300000000000000000000000000000),
  (1061137445691530312498000351691849000000000000000000000000000000, 837775838313113245784945482539806100000000000000000000000000000),
  (2252924458168540975850762215219067000000000000000000000000000000, 1616652691466424817252672864963462000000000000000000000000000000),
  (4468106693607139703379794808039881000000000000000000000000000000, 2917877075147952240603687295417872000000000000000000000000000000),
  (8335099166651290043254638022679248000000000000000000000000000000, 4959203856839813993693082246215984000000000000000000000000000000),
  (14713724374410978800917342227895370000000000000000000000000000000, 7982050510496263912448634230238475000000000000000000000000000000),
  (24705682383848114992623101937930560000000000000000000000000000000, 12222800169174071889123786933765510000000000000000000000000000000),
  (39629250410486567018676857105450160000000000000000000000000000000, 17869898672859308705133472589681270000000000000000000000000000000),
  (60944328914752044064562311291753240000000000000000000000000000000, 25007966022360763093596885550559000000000000000000000000000000000),
  (90117286315978642268617455871797120000000000000000000000000000000, 33554766616632836307759242868016460000000000000000000000000000000),
  (128424133261534866318446470746738500000000000000000000000000000000, 43203622204693274889753148983332390000000000000000000000000000000),
  (176706783931914089834240270259933500000000000000000000000000000000, 53390923360129529032982280424164300000000000000000000000000000000),
  (235119038139593182632843439754477100000000000000000000000000000000, 63311791003012463944718467006880190000000000000000000000000000000),
  (302920163378826561775614033089158200000000000000000000000000000000, 72001452193880625223132926364804280000000000000000000000000000000),
  (378383742482244316778105284127887700000000000000000000000000000000, 78482338228769365206924873749621840000000000000000000000000000000),
  (458876611363579095872040693566183100000000000000000000000000000000, 81950445324927817150527979153134870000000000000000000000000000000),
  (541123388636420904127959306433816900000000000000000000000000000000, 81950445324927817150527979153134870000000000000000000000000000000),
  (621616257517755683221894715872112300000000000000000000000000000000, 78482338228769365206924873749621840000000000000000000000000000000),
  (697079836621173438224385966910841700000000000000000000000000000000, 72001452193880625223132926364804280000000000000000000000000000000),
  (764880961860406817367156560245522900000000000000000000000000000000, 63311791003012463944718467006880190000000000000000000000000000000),
  (823293216068085910165759729740066500000000000000000000000000000000, 53390923360129529032982280424164300000000000000000000000000000000),
  (871575866738465133681553529253261400000000000000000000000000000000, 43203622204693274889753148983332390000000000000000000000000000000),
  (909882713684021357731382544128202900000000000000000000000000000000, 33554766616632836307759242868016460000000000000000000000000000000),
  (939055671085247955935437688708246700000000000000000000000000000000, 25007966022360763093596885550559000000000000000000000000000000000),
  (960370749589513432981323142894549700000000000000000000000000000000, 17869898672859308705133472589681270000000000000000000000000000000),
  (975294317616151885007376898062069500000000000000000000000000000000, 12222800169174071889123786933765510000000000000000000000000000000),
  (985286275625589021199082657772104500000000000000000000000000000000, 7982050510496263912448634230238475000000000000000000000000000000),
  (991664900833348709956745361977320700000000000000000000000000000000, 4959203856839813993693082246215984000000000000000000000000000000),
  (995531893306392860296620205191960200000000000000000000000000000000, 2917877075147952240603687295417872000000000000000000000000000000),
  (997747075541831459024149237784781000000000000000000000000000000000, 1616652691466424817252672864963462000000000000000000000000000000),
  (998938862554308469687501999648308200000000000000000000000000000000, 837775838313113245784945482539806000000000000000000000000000000),
  (999536788662463998916816277858574700000000000000000000000000000000, 402899129455456723051997497713726300000000000000000000000000000),
  (999814253788763274285427917628155200000000000000000000000000000000, 178215859667778562015417456615108600000000000000000000000000000),
  (999932252866650932854756596483420800000000000000000000000000000000, 71783189735765623543759829934962210000000000000000000000000000),
  (999977771815740517715531725084311300000000000000000000000000000000, 26035961465033925079638222182843440000000000000000000000000000),
  (999993518941915734868274908216999400000000000000000000000000000000, 8398854572047250875955828106179125000000000000000000000000000),
  (999998343358906112352532032392063200000000000000000000000000000000, 2376908869925501637314125519087654000000000000000000000000000),
  (999999634296870622877520943746123300000000000000000000000000000000, 581265115737732676675478069451205900000000000000000000000000),
  (999999931432205220612634858788227200000000000000000000000000000000, 120790571330318529881612236031210700000000000000000000000000),
  (999999989280005136205982471317683300000000000000000000000000000000, 20938351336555308444889090269732630000000000000000000000000),
  (999999998630777898400421459297591300000000000000000000000000000000, 2966152045588296474539890815369734000000000000000000000000),
  (999999999860326833237430480720815100000000000000000000000000000000, 335671999281095585924883231991170300000000000000000000000),
  (999999999988903372022670591891988100000000000000000000000000000000, 29591433370702186291181260316010130000000000000000000000),
  (999999999999332284673390813013007200000000000000000000000000000000, 1976115996909638110944856884063992000000000000000000000),
  (999999999999970496885806413022649200000000000000000000000000000000, 96915792835536492277981479987025310000000000000000000),
  (999999999999999075095285248712201400000000000000000000000000000000, 3372698960540604224655950901512461000000000000000000),
  (999999999999999980197808054953920000000000000000000000000000000000, 80165393988331213051552550264178000000000000000000),
  (999999999999999999722459213213632200000000000000000000000000000000, 1247456343373832603517346657418394000000000000000),
  (999999999999999999997570478136230300000000000000000000000000000000, 12124672629558501808115182234723430000000000000),
  (999999999999999999999987392570481100000000000000000000000000000000, 69863019189721396351384844473162820000000000)]

/-- n = 69. quadrature_lib.cpp:7443-7511. -/
def b69 : List (Nat × Nat) := [
  (6603882030861005966851884844116197000000000, 36623689795287877436302027041000870000000000),
  (1281790814296898384045551249223117000000000000, 6409434315330388066725129519808285000000000000),
  (148204606328278651453379052506322100000000000000, 668226843062235229816810210280778100000000000000),
  (10743565389184446014926135412413120000000000000000, 43681224853948868765989094551955160000000000000000),
  (511339649437484279935940509668951800000000000000000, 1874865537520652018042353427914030000000000000000000),
  (16657479868811934929458799332854480000000000000000000, 55083467324486352724447673310788120000000000000000000),
  (385601997026463865118631085279154500000000000000000000, 1150133079091365717836024912570264000000000000000000000),
  (6561347965880714306128474431714147000000000000000000000, 17654470705796643635298471667657560000000000000000000000),
  (84610621995584043857306746672331670000000000000000000000, 205403623455812390978275320636539000000000000000000000000),
  (849947674747841369182854735364256700000000000000000000000, 1862007658786583960493521492682106000000000000000000000000),
  (6818431164118726030088897080788360000000000000000000000000, 13482906605790786484920861615080550000000000000000000000000),
  (44672409519100844462971804009827000000000000000000000000000, 79758236380555889263872253908562690000000000000000000000000),
  (243920129210766884599458139807152000000000000000000000000000, 393348055287724520857792575570007000000000000000000000000000),
  (1130439966817977839765350562568731000000000000000000000000000, 1647256383140400308383655143675270000000000000000000000000000),
  (4520743498326551733026730674001585000000000000000000000000000, 5955815461511530488240269316024277000000000000000000000000000),
  (15834870030192182489678549954885320000000000000000000000000000, 18873258041127813698684355591134900000000000000000000000000000),
  (49239952617635626439741783201766590000000000000000000000000000, 53136355693492482842680342758895020000000000000000000000000000),
  (137597547517783883756318129696977400000000000000000000000000000, 134564358949202490003697261067804300000000000000000000000000000),
  (349357597121292941206198244027486200000000000000000000000000000, 309956900651952883921270223304567700000000000000000000000000000),
  (813951110945086955614500811420964200000000000000000000000000000, 655938241053974776229389035229551600000000000000000000000000000),
  (1755718997550915109801541416239178000000000000000000000000000000, 1286797744314171850270300068134343000000000000000000000000000000),
  (3534129885933336654400016528096318000000000000000000000000000000, 2358773633975356842291836792468126000000000000000000000000000000),
  (6685356075596960067616252375614750000000000000000000000000000000, 4068029076615783968582055088136359000000000000000000000000000000),
  (11957560572145953058800747826376610000000000000000000000000000000, 6639677532153506505579579106273179000000000000000000000000000000),
  (20329745075823522974691990870375740000000000000000000000000000000, 10305532795140430208939525165356160000000000000000000000000000000),
  (33001989543427802494156239506612830000000000000000000000000000000, 15268972345683960540424581727700650000000000000000000000000000000),
  (51344030015851686463051562495670600000000000000000000000000000000, 21656981804966570082549410905706180000000000000000000000000000000),
  (76790714661417408157459481269281240000000000000000000000000000000, 29462836419306991273723763256827740000000000000000000000000000000),
  (110678893549586227909086630027571700000000000000000000000000000000, 38488313587323138409376098483589750000000000000000000000000000000),
  (154032482736081768601370857286629900000000000000000000000000000000, 48300939797307173734649230680525170000000000000000000000000000000),
  (207320752907426237349524563153603200000000000000000000000000000000, 58226786419192539982556537008915020000000000000000000000000000000),
  (270235607037537688018945007919327700000000000000000000000000000000, 67398328817151590906780409960931030000000000000000000000000000000),
  (341548525666687951262352164149241400000000000000000000000000000000, 74865814967812417528041502877662490000000000000000000000000000000),
  (419106367927287934388545749216305600000000000000000000000000000000, 79759366702040333547432274487889670000000000000000000000000000000),
  (500000000000000000000000000000000000000000000000000000000000000000, 81464574990620938908139639631756060000000000000000000000000000000),
  (580893632072712065611454250783694500000000000000000000000000000000, 79759366702040333547432274487889670000000000000000000000000000000),
  (658451474333312048737647835850758600000000000000000000000000000000, 74865814967812417528041502877662490000000000000000000000000000000),
  (729764392962462311981054992080672300000000000000000000000000000000, 67398328817151590906780409960931030000000000000000000000000000000),
  (792679247092573762650475436846396900000000000000000000000000000000, 58226786419192539982556537008915020000000000000000000000000000000),
  (845967517263918231398629142713370100000000000000000000000000000000, 48300939797307173734649230680525170000000000000000000000000000000),
  (889321106450413772090913369972428300000000000000000000000000000000, 38488313587323138409376098483589750000000000000000000000000000000),
  (923209285338582591842540518730718800000000000000000000000000000000, 29462836419306991273723763256827740000000000000000000000000000000),
  (948655969984148313536948437504329400000000000000000000000000000000, 21656981804966570082549410905706180000000000000000000000000000000),
  (966998010456572197505843760493387200000000000000000000000000000000, 15268972345683960540424581727700650000000000000000000000000000000),
  (979670254924176477025308009129624100000000000000000000000000000000, 10305532795140430208939525165356160000000000000000000000000000000),
  (988042439427854046941199252173623400000000000000000000000000000000, 6639677532153506505579579106273179000000000000000000000000000000),
  (993314643924403039932383747624385200000000000000000000000000000000, 4068029076615783968582055088136359000000000000000000000000000000),
  (996465870114066663345599983471903700000000000000000000000000000000, 2358773633975356842291836792468128000000000000000000000000000000),
  (998244281002449084890198458583760900000000000000000000000000000000, 1286797744314171850270300068134343000000000000000000000000000000),
  (999186048889054913044385499188579100000000000000000000000000000000, 655938241053974776229389035229551600000000000000000000000000000),
  (999650642402878707058793801755972600000000000000000000000000000000, 309956900651952883921270223304567700000000000000000000000000000),
  (999862402452482216116243681870302900000000000000000000000000000000, 134564358949202490003697261067804300000000000000000000000000000),
  (999950760047382364373560258216798100000000000000000000000000000000, 53136355693492482842680342758895020000000000000000000000000000),
  (999984165129969807817510321450045100000000000000000000000000000000, 18873258041127813698684355591134900000000000000000000000000000),
  (999995479256501673448266973269325900000000000000000000000000000000, 5955815461511530488240269316024276000000000000000000000000000),
  (999998869560033182022160234649437500000000000000000000000000000000, 1647256383140400308383655143675270000000000000000000000000000),
  (999999756079870789233115400541860100000000000000000000000000000000, 393348055287724520857792575570007000000000000000000000000000),
  (999999955327590480899155537028196000000000000000000000000000000000, 79758236380555889263872253908562690000000000000000000000000),
  (999999993181568835881273969911102800000000000000000000000000000000, 13482906605790786484920861615080550000000000000000000000000),
  (999999999150052325252158630817145300000000000000000000000000000000, 1862007658786583960493521492682106000000000000000000000000),
  (999999999915389378004415956142693300000000000000000000000000000000, 205403623455812390978275320636539000000000000000000000000),
  (999999999993438652034119285693871500000000000000000000000000000000, 17654470705796643635298471667657560000000000000000000000),
  (999999999999614398002973536134881400000000000000000000000000000000, 1150133079091365717836024912570264000000000000000000000),
  (999999999999983342520131188065070500000000000000000000000000000000, 55083467324486352724447673310788120000000000000000000),
  (999999999999999488660350562515720000000000000000000000000000000000, 1874865537520652018042353427914030000000000000000000),
  (999999999999999989256434610815554000000000000000000000000000000000, 43681224853948868765989094551955160000000000000000),
  (999999999999999999851795393671721400000000000000000000000000000000, 668226843062235229816810210280778100000000000000),
  (999999999999999999998718209185703000000000000000000000000000000000, 6409434315330388066725129519808285000000000000),
  (999999999999999999999993396117969100000000000000000000000000000000, 36623689795287877436302027041000870000000000)]

/-- n = 70. quadrature_lib.cpp:7512-7581. -/
def b70 : List (Nat × Nat) := [
  (3464713504112490156399936298470065000000000, 19229296806735574991701769080300340000000000),
  (677227880920678525819651552823073200000000000, 3392887534040107451690521696539140000000000000),
  (79232081367667791617978342698391840000000000000, 358338297675126699214270748541763500000000000000),
  (5833681858257058885544271153776226000000000000000, 23818571031687858234924602702858650000000000000000),
  (282825672600995833187464316048363300000000000000000, 1042560212741387010978161060297103000000000000000000),
  (9405406274502164214255061719796265000000000000000000, 31304319515574631881548380851264500000000000000000000),
  (222609303028055648948368777697620600000000000000000000, 669048157002487093807966969641422000000000000000000000),
  (3876906465400903759890340791013134000000000000000000000, 10522997142553326461671655900557130000000000000000000000),
  (51200012745492936973506700317540550000000000000000000000, 125524607282961314632329927557497900000000000000000000000),
  (526864361743861228133588194979410600000000000000000000000, 1166921102608250419178931823456690000000000000000000000000),
  (4329442017300505685079781038510187000000000000000000000000, 8664739285165061065442847747963418000000000000000000000000),
  (29046983346619679967599559306979560000000000000000000000000, 52544145900244224472942215908711920000000000000000000000000),
  (162334378088488651482365933424498900000000000000000000000000, 265508814436007241715257921190978500000000000000000000000000),
  (769536004297770603571561191559421600000000000000000000000000, 1138466469008656170620275136933230000000000000000000000000000),
  (3145370559345098059043806470725839000000000000000000000000000, 4211168906501812437336215628912857000000000000000000000000000),
  (11250597447039700999633938426674740000000000000000000000000000, 13639830783460482057779078180936990000000000000000000000000000),
  (35691416448953411353222458826207690000000000000000000000000000, 39211765512318306231464147701791500000000000000000000000000000),
  (101649428335589684542072400424778000000000000000000000000000000, 101286822159272768876260194514390600000000000000000000000000000),
  (262761743341031446904271368621891400000000000000000000000000000, 237707730105603407661476131264348500000000000000000000000000000),
  (622635701205614336624788871005236200000000000000000000000000000, 511968191190218567771801503677623000000000000000000000000000000),
  (1364544016970143007675241248436392000000000000000000000000000000, 1021082416036437733121322483817083000000000000000000000000000000),
  (2787939295463636809658182104408398000000000000000000000000000000, 1900951139106160274841252945399502000000000000000000000000000000),
  (5348045494330482784231087550238767000000000000000000000000000000, 3326727830727494824201509638447810000000000000000000000000000000),
  (9692278542957778359918970277361297000000000000000000000000000000, 5505712021450336882610731373791382000000000000000000000000000000),
  (16684871608859693891517952167359560000000000000000000000000000000, 8660518171643209567578010422064062000000000000000000000000000000),
  (27409034624030834374918121308912480000000000000000000000000000000, 13000743882745381015067191898441520000000000000000000000000000000),
  (43134682958448240553010997167764970000000000000000000000000000000, 18682481860918455165759733368739720000000000000000000000000000000),
  (65240185902842931730365374139883460000000000000000000000000000000, 25757434128790004257577670289528080000000000000000000000000000000),
  (95080298977579110455788236371108370000000000000000000000000000000, 34117611678941647838200902990958810000000000000000000000000000000),
  (133801228334386421112359684852599900000000000000000000000000000000, 43447369995310179845359972722234600000000000000000000000000000000),
  (182118443652419259714977475506228200000000000000000000000000000000, 53200091353551198875305887359424380000000000000000000000000000000),
  (240091605188089456852175999417777100000000000000000000000000000000, 62618743434000287390532583001258780000000000000000000000000000000),
  (306948087939100469156383990208302300000000000000000000000000000000, 70813749153573461173114640762764780000000000000000000000000000000),
  (381013026910746010059766119005312900000000000000000000000000000000, 76896057629834684728490383866160870000000000000000000000000000000),
  (459790893745943895083052566304270800000000000000000000000000000000, 80141233306874928759686906108413210000000000000000000000000000000),
  (540209106254056104916947433695729200000000000000000000000000000000, 80141233306874928759686906108413210000000000000000000000000000000),
  (618986973089253989940233880994687100000000000000000000000000000000, 76896057629834684728490383866160870000000000000000000000000000000),
  (693051912060899530843616009791697700000000000000000000000000000000, 70813749153573461173114640762764780000000000000000000000000000000),
  (759908394811910543147824000582222900000000000000000000000000000000, 62618743434000287390532583001258780000000000000000000000000000000),
  (817881556347580740285022524493771800000000000000000000000000000000, 53200091353551198875305887359424380000000000000000000000000000000),
  (866198771665613578887640315147400100000000000000000000000000000000, 43447369995310179845359972722234580000000000000000000000000000000),
  (904919701022420889544211763628891700000000000000000000000000000000, 34117611678941647838200902990958810000000000000000000000000000000),
  (934759814097157068269634625860116500000000000000000000000000000000, 25757434128790004257577670289528070000000000000000000000000000000),
  (956865317041551759446989002832235000000000000000000000000000000000, 18682481860918455165759733368739720000000000000000000000000000000),
  (972590965375969165625081878691087600000000000000000000000000000000, 13000743882745381015067191898441520000000000000000000000000000000),
  (983315128391140306108482047832640500000000000000000000000000000000, 8660518171643209567578010422064064000000000000000000000000000000),
  (990307721457042221640081029722638600000000000000000000000000000000, 5505712021450336882610731373791382000000000000000000000000000000),
  (994651954505669517215768912449761300000000000000000000000000000000, 3326727830727494824201509638447810000000000000000000000000000000),
  (997212060704536363190341817895591600000000000000000000000000000000, 1900951139106160274841252945399503000000000000000000000000000000),
  (998635455983029856992324758751563600000000000000000000000000000000, 1021082416036437733121322483817082000000000000000000000000000000),
  (999377364298794385663375211128994900000000000000000000000000000000, 511968191190218567771801503677623000000000000000000000000000000),
  (999737238256658968553095728631378100000000000000000000000000000000, 237707730105603407661476131264348500000000000000000000000000000),
  (999898350571664410315457927599575200000000000000000000000000000000, 101286822159272768876260194514390600000000000000000000000000000),
  (999964308583551046588646777541173800000000000000000000000000000000, 39211765512318306231464147701791550000000000000000000000000000),
  (999988749402552960299000366061573400000000000000000000000000000000, 13639830783460482057779078180936990000000000000000000000000000),
  (999996854629440654901940956193529300000000000000000000000000000000, 4211168906501812437336215628912857000000000000000000000000000),
  (999999230463995702229396428438808500000000000000000000000000000000, 1138466469008656170620275136933230000000000000000000000000000),
  (999999837665621911511348517634066500000000000000000000000000000000, 265508814436007241715257921190978500000000000000000000000000),
  (999999970953016653380320032400440600000000000000000000000000000000, 52544145900244224472942215908711920000000000000000000000000),
  (999999995670557982699494314920218900000000000000000000000000000000, 8664739285165061065442847747963417000000000000000000000000),
  (999999999473135638256138771866411900000000000000000000000000000000, 1166921102608250419178931823456690000000000000000000000000),
  (999999999948799987254507063026493200000000000000000000000000000000, 125524607282961314632329927557497900000000000000000000000),
  (999999999996123093534599096240109500000000000000000000000000000000, 10522997142553326461671655900557130000000000000000000000),
  (999999999999777390696971944351051600000000000000000000000000000000, 669048157002487093807966969641422000000000000000000000),
  (999999999999990594593725497835785800000000000000000000000000000000, 31304319515574631881548380851264500000000000000000000),
  (999999999999999717174327399004166900000000000000000000000000000000, 1042560212741387010978161060297103000000000000000000),
  (999999999999999994166318141742941000000000000000000000000000000000, 23818571031687858234924602702858510000000000000000),
  (999999999999999999920767918632332300000000000000000000000000000000, 358338297675126699214270748541763500000000000000),
  (999999999999999999999322772119079300000000000000000000000000000000, 3392887534040107451690521696539161000000000000),
  (999999999999999999999996535286495900000000000000000000000000000000, 19229296806735574991701769080300340000000000)]

/-- Blocks 51..70. -/
def blocks1 : List (List (Nat × Nat)) := [b51, b52, b53, b54, b55, b56, b57, b58, b59, b60, b61, b62, b63, b64, b65, b66, b67, b68, b69, b70]

end Qugar.TanhSinhTable
