/-
GENERATED (see DESIGN.md) from cpp/qugar/quadrature_lib.cpp: rows of `Gauss::get_quad_data` for n = 51..70 points.
Every decimal literal of the source is written as an integer multiple of 10^(-40) (exactly, no rounding); the
rounding of the literals to `double` is not modelled.
-/
namespace Qugar.GaussTable

/-- n = 51. quadrature_lib.cpp:1311-1361. -/
def b51 : List (Nat × Nat) := [
  (5450045755482524155020613633071685000, 13984035855449477877721084409044530000),
  (28693697816237126894575510253684380000, 32501688916263001460546875992687340000),
  (70420041320485017080571462208452030000, 50925956489108649696187958933033750000),
  (130483159903380663841222568029066600000, 69163170032389111483442265109282760000),
  (208660756930459027211464808418381600000, 87143573617005261297518232166462580000),
  (304662279985188082823160968045474200000, 104799942008516052898963092007570700000),
  (418130688451098845882143528742620500000, 122066502868907171365707827084491000000),
  (548643909852363483611023146316365600000, 138878992970812385979978328161044400000),
  (695716444088538142632521281419443500000, 155174856450800042272127514782736900000),
  (858801180884675835725907879917188300000, 170893466020941681181046692973838200000),
  (1037291439503093973827945608120622000000, 185976344616301464214541379059355300000),
  (1230523227573122371180199872737630000000, 200367381427482265934045579606979600000),
  (1437777712114816777097375722999272000000, 214013039989400433268047571221428500000),
  (1658283894123149565677697902980056000000, 226862557038250343740834074942189300000),
  (1891221476996383631224786272983420000000, 238868131203115509999976768536768000000),
  (2135723918243480817388026487049045000000, 249985100750287048897744276810028800000),
  (2390881653169070787429561075865910000000, 260172109683485437820682237343311900000),
  (2655745478569794681947713705941888000000, 269391261565227807170496508484859600000),
  (2929330083868480610315640951276710000000, 277608260478693465083685295468120700000),
  (3210617716557952451123994557401668000000, 284792538601293310500388633671385500000),
  (3498561968323340302348771751777898000000, 290917369912960702992189388308879500000),
  (3792091667761006480766334425653688000000, 295959969614807718917695038745773400000),
  (4090114865214612273380006494153928000000, 299901578887516260450319939982586100000),
  (4391522894905556165180897895184095000000, 302727534673688975690626257338771000000),
  (4695194499247106376329026465783973000000, 304427324224281719405993071113481400000),
  (5000000000000000000000000000000000000000, 304994624206029400798988215491780300000),
  (5304805500752893623670973534216027000000, 304427324224281719405993071113481400000),
  (5608477105094443834819102104815905000000, 302727534673688975690626257338771000000),
  (5909885134785387726619993505846072000000, 299901578887516260450319939982586100000),
  (6207908332238993519233665574346312000000, 295959969614807718917695038745773400000),
  (6501438031676659697651228248222102000000, 290917369912960702992189388308879500000),
  (6789382283442047548876005442598332000000, 284792538601293310500388633671385500000),
  (7070669916131519389684359048723290000000, 277608260478693465083685295468120700000),
  (7344254521430205318052286294058113000000, 269391261565227807170496508484859600000),
  (7609118346830929212570438924134090000000, 260172109683485437820682237343311900000),
  (7864276081756519182611973512950955000000, 249985100750287048897744276810028800000),
  (8108778523003616368775213727016580000000, 238868131203115509999976768536768000000),
  (8341716105876850434322302097019945000000, 226862557038250343740834074942189300000),
  (8562222287885183222902624277000728000000, 214013039989400433268047571221428500000),
  (8769476772426877628819800127262370000000, 200367381427482265934045579606979600000),
  (8962708560496906026172054391879378000000, 185976344616301464214541379059355300000),
  (9141198819115324164274092120082811000000, 170893466020941681181046692973838200000),
  (9304283555911461857367478718580556000000, 155174856450800042272127514782736900000),
  (9451356090147636516388976853683634000000, 138878992970812385979978328161044400000),
  (9581869311548901154117856471257380000000, 122066502868907171365707827084491000000),
  (9695337720014811917176839031954526000000, 104799942008516052898963092007570700000),
  (9791339243069540972788535191581618000000, 87143573617005261297518232166462580000),
  (9869516840096619336158777431970934000000, 69163170032389111483442265109282760000),
  (9929579958679514982919428537791547000000, 50925956489108649696187958933033750000),
  (9971306302183762873105424489746315000000, 32501688916263001460546875992687340000),
  (9994549954244517475844979386366928000000, 13984035855449477877721084409044530000)]

/-- n = 52. quadrature_lib.cpp:1362-1413. -/
def b52 : List (Nat × Nat) := [
  (5244444480248609545192796417037197000, 13456584750235555594760899344226100000),
  (27612045353919853774783641002141610000, 31277619814866384498580510849073120000),
  (67769021742250796773385704408013290000, 49013172897313760309755840583447800000),
  (125580578891277484296467648001772500000, 66575574911704803283001722388996140000),
  (200840865334567237339874232874672800000, 83900116981503678389607684352601130000),
  (293280731793204715782104080747164800000, 100924457539903961014945171047391300000),
  (402569355417877300532018117290591900000, 117587567769922307951612599550273100000),
  (528315547327523387395779558682362100000, 133829768732520067247465401430092300000),
  (670069185769662073778207411878965300000, 149592905735719733206410343699854900000),
  (827322838366327325191368051893806700000, 164820545448593989575050223893476100000),
  (999513582847658378326206228870961900000, 179458174175486164709711966426403800000),
  (1186025024031275198603944184554746000000, 193453391552119894925506033701763100000),
  (1386189501250084031615916619640320000000, 206756097502801358395201432119775400000),
  (1599290478864161489538806101316795000000, 219318671295002039975648327893821900000),
  (1824565111523770378509377103555952000000, 231096141863923967538228526676423500000),
  (2061206975102104650489871092213979000000, 242046348720374484269801246430231200000),
  (2308368953570862808120244160123216000000, 252130092831711886091056270414293600000),
  (2565166271509519611087708793267672000000, 261311276919534965171970722131960000000),
  (2830679661406191648454567158951098000000, 269557034663786323754184124468999800000),
  (3103958654419531653766591165302756000000, 276837848346513262745205467256092800000),
  (3384024982825960872494504666992764000000, 283127654511842985954041202391850600000),
  (3669876081974990862635141347005801000000, 288403937262634138269659988317017600000),
  (3960488679218169701567669359388273000000, 292647808859069342751452994858118600000),
  (4254822456965254097556829799909432000000, 295844077330214851846660011974355200000),
  (4551823776755497172555726544388004000000, 297981300856240791291554393742074600000),
  (4850429451013306169781596119646000000000, 299051828726459301238926894057387000000),
  (5149570548986693830218403880354000000000, 299051828726459301238926894057387000000),
  (5448176223244502827444273455611996000000, 297981300856240791291554393742074600000),
  (5745177543034745902443170200090568000000, 295844077330214851846660011974355200000),
  (6039511320781830298432330640611727000000, 292647808859069342751452994858118600000),
  (6330123918025009137364858652994199000000, 288403937262634138269659988317017600000),
  (6615975017174039127505495333007236000000, 283127654511842985954041202391850600000),
  (6896041345580468346233408834697244000000, 276837848346513262745205467256092800000),
  (7169320338593808351545432841048902000000, 269557034663786323754184124468999800000),
  (7434833728490480388912291206732327000000, 261311276919534965171970722131960000000),
  (7691631046429137191879755839876784000000, 252130092831711886091056270414293600000),
  (7938793024897895349510128907786021000000, 242046348720374484269801246430231200000),
  (8175434888476229621490622896444048000000, 231096141863923967538228526676423500000),
  (8400709521135838510461193898683205000000, 219318671295002039975648327893821900000),
  (8613810498749915968384083380359680000000, 206756097502801358395201432119775400000),
  (8813974975968724801396055815445255000000, 193453391552119894925506033701763100000),
  (9000486417152341621673793771129038000000, 179458174175486164709711966426403800000),
  (9172677161633672674808631948106193000000, 164820545448593989575050223893476100000),
  (9329930814230337926221792588121034000000, 149592905735719733206410343699854900000),
  (9471684452672476612604220441317638000000, 133829768732520067247465401430092300000),
  (9597430644582122699467981882709409000000, 117587567769922307951612599550273100000),
  (9706719268206795284217895919252835000000, 100924457539903961014945171047391300000),
  (9799159134665432762660125767125327000000, 83900116981503678389607684352601130000),
  (9874419421108722515703532351998227000000, 66575574911704803283001722388996140000),
  (9932230978257749203226614295591987000000, 49013172897313760309755840583447800000),
  (9972387954646080146225216358997858000000, 31277619814866384498580510849073120000),
  (9994755555519751390454807203582963000000, 13456584750235555594760899344226100000)]

/-- n = 53. quadrature_lib.cpp:1414-1466. -/
def b53 : List (Nat × Nat) := [
  (5050261118358864394728664839002211000, 12958418602835159057996197192554130000),
  (26590403459964606819820532580030250000, 30121381134743366406208534081498650000),
  (65264824883142391398134593447108940000, 47206011424701721933310894101625850000),
  (120948831425077091835080709468189700000, 64130130721201895895750914846018870000),
  (193451526884318338150709031586801200000, 80833626283437319640304142020199060000),
  (282523232677790604894646661519036100000, 97258605538184476940234611137484840000),
  (387856984785939358660904499587417300000, 113348365285351041993946376199138900000),
  (509089710622866870372399850134594200000, 129047412553787588569809440833146900000),
  (645803512208793241991499565557029400000, 144301618089118681313997765217916000000),
  (797527117270993122849362450850266100000, 159058392295096615316179310155404800000),
  (963737507915522608897571809870464200000, 173266862917671189791938602565053700000),
  (1143861725372338460669820621869801000000, 186878049017414578370859863926971200000),
  (1337278845962448731089322066391249000000, 199845029217701910635467728939318000000),
  (1543322121993166382296255884305277000000, 212123103172600067961408187842251900000),
  (1761281280417449656244469050306833000000, 223669945518364051063828229592818000000),
  (1990404971431153362678528140176882000000, 234445751703751570109363197825524700000),
  (2229903358614660594926325045949754000000, 244413375163495702102242037917920700000),
  (2478950841714332814804415135560210000000, 253538455346463576482427413172652300000),
  (2736688902690771043084276196233420000000, 261789536149363590998507604946803200000),
  (3002229065230235113037184318808012000000, 269138174343655145210407208177013300000),
  (3274655957521388216528446769652495000000, 275559037619667995011748523829337000000),
  (3553030467741868967867264967029936000000, 281029991908698549043275310457225100000),
  (3836392981378637031783181789000419000000, 285532177681335958866916696492094900000),
  (4123766689223371246351044954335524000000, 289050074958565981598415380486260400000),
  (4414160954640224249298715956103381000000, 291571556811280037781378781688486400000),
  (4706574728498702674886440270833842000000, 293087931163601316590359685249944800000),
  (5000000000000000000000000000000000000000, 293593970755821822627434722210670600000),
  (5293425271501297325113559729166158000000, 293087931163601316590359685249944800000),
  (5585839045359775750701284043896619000000, 291571556811280037781378781688486400000),
  (5876233310776628753648955045664476000000, 289050074958565981598415380486260400000),
  (6163607018621362968216818210999581000000, 285532177681335958866916696492094900000),
  (6446969532258131032132735032970064000000, 281029991908698549043275310457225100000),
  (6725344042478611783471553230347505000000, 275559037619667995011748523829337000000),
  (6997770934769764886962815681191988000000, 269138174343655145210407208177013300000),
  (7263311097309228956915723803766580000000, 261789536149363590998507604946803200000),
  (7521049158285667185195584864439790000000, 253538455346463576482427413172652300000),
  (7770096641385339405073674954050246000000, 244413375163495702102242037917920700000),
  (8009595028568846637321471859823118000000, 234445751703751570109363197825524700000),
  (8238718719582550343755530949693167000000, 223669945518364051063828229592818000000),
  (8456677878006833617703744115694724000000, 212123103172600067961408187842251900000),
  (8662721154037551268910677933608750000000, 199845029217701910635467728939318000000),
  (8856138274627661539330179378130198000000, 186878049017414578370859863926971200000),
  (9036262492084477391102428190129536000000, 173266862917671189791938602565053700000),
  (9202472882729006877150637549149734000000, 159058392295096615316179310155404800000),
  (9354196487791206758008500434442971000000, 144301618089118681313997765217916000000),
  (9490910289377133129627600149865406000000, 129047412553787588569809440833146900000),
  (9612143015214060641339095500412582000000, 113348365285351041993946376199138900000),
  (9717476767322209395105353338480964000000, 97258605538184476940234611137484840000),
  (9806548473115681661849290968413199000000, 80833626283437319640304142020199060000),
  (9879051168574922908164919290531810000000, 64130130721201895895750914846018870000),
  (9934735175116857608601865406552892000000, 47206011424701721933310894101625850000),
  (9973409596540035393180179467419969000000, 30121381134743366406208534081498650000),
  (9994949738881641135605271335160998000000, 12958418602835159057996197192554130000)]

/-- n = 54. quadrature_lib.cpp:1467-1520. -/
def b54 : List (Nat × Nat) := [
  (4866665663295080744644465080207824000, 12487409178807928879730193786330630000),
  (25624414908305575405550020256486890000, 29028055076199924394129438729376500000),
  (62896813013282207239271397982268850000, 45496847277546984740167605312096210000),
  (116568355710483813999949640058465700000, 61816640644238220832339121300941070000),
  (186461771070382083715030365473050100000, 77931515179620658514844548529183640000),
  (272345124175020731180814885469097900000, 93787638107346889560039921420355910000),
  (373933200666742568718619697601042900000, 109332257114265429727552132694396600000),
  (490888568576492096212663843057860000000, 124513707336043865250274856366945400000),
  (622822729672155302910453321386946200000, 139281546552979351435010173819575600000),
  (769297420146135252870562445635787400000, 153586712489353380270023049580773800000),
  (929826070432160822651808479624005200000, 167381682321863228580202224178054100000),
  (1103875423268729892320256925797337000000, 180620629201917762914435371037124700000),
  (1290867305954078418571168656232110000000, 193259573910512584184285695257899600000),
  (1490180551404135403072145115151647000000, 205256530683224871108591054388021900000),
  (1701153061840084376538550885718898000000, 216571646547985077209628801852540200000),
  (1923084008344363146350310899191359000000, 227167333641383569874260903757722700000),
  (2155236159023952851341875829114230000000, 237008394032224955292882050576617900000),
  (2396838328070334633364914306251179000000, 246062136622644430343953151844057800000),
  (2647087937593088581583939318361287000000, 254298485730940721598546034880594000000),
  (2905153683723977359819486512687450000000, 261690080991493723327943473763425400000),
  (3170178298139044090078339459172563000000, 268212368237768056360503138626232300000),
  (3441281395827658855587248049239381000000, 273843681065289931531113173585545300000),
  (3717562399650013499612943927734959000000, 278565312802949938416849087136855700000),
  (3998103531968932151106987685853510000000, 282361578653129825155221323408806000000),
  (4281972863418719230264551185506054000000, 285219867793972992839142171271136400000),
  (4568227408683758923572784111156252000000, 287130685270560574296450658866034200000),
  (4855916259003291111718820762498865000000, 288087683535735123361880644029357300000),
  (5144083740996708888281179237501136000000, 288087683535735123361880644029357300000),
  (5431772591316241076427215888843748000000, 287130685270560574296450658866034200000),
  (5718027136581280769735448814493946000000, 285219867793972992839142171271136400000),
  (6001896468031067848893012314146490000000, 282361578653129825155221323408806000000),
  (6282437600349986500387056072265041000000, 278565312802949938416849087136855700000),
  (6558718604172341144412751950760619000000, 273843681065289931531113173585545300000),
  (6829821701860955909921660540827437000000, 268212368237768056360503138626232300000),
  (7094846316276022640180513487312550000000, 261690080991493723327943473763425400000),
  (7352912062406911418416060681638714000000, 254298485730940721598546034880594000000),
  (7603161671929665366635085693748821000000, 246062136622644430343953151844057800000),
  (7844763840976047148658124170885770000000, 237008394032224955292882050576617900000),
  (8076915991655636853649689100808642000000, 227167333641383569874260903757722700000),
  (8298846938159915623461449114281103000000, 216571646547985077209628801852540200000),
  (8509819448595864596927854884848352000000, 205256530683224871108591054388021900000),
  (8709132694045921581428831343767890000000, 193259573910512584184285695257899600000),
  (8896124576731270107679743074202663000000, 180620629201917762914435371037124700000),
  (9070173929567839177348191520375995000000, 167381682321863228580202224178054100000),
  (9230702579853864747129437554364213000000, 153586712489353380270023049580773800000),
  (9377177270327844697089546678613054000000, 139281546552979351435010173819575600000),
  (9509111431423507903787336156942140000000, 124513707336043865250274856366945400000),
  (9626066799333257431281380302398957000000, 109332257114265429727552132694396600000),
  (9727654875824979268819185114530902000000, 93787638107346889560039921420355910000),
  (9813538228929617916284969634526950000000, 77931515179620658514844548529183640000),
  (9883431644289516186000050359941535000000, 61816640644238220832339121300941070000),
  (9937103186986717792760728602017731000000, 45496847277546984740167605312096210000),
  (9974375585091694424594449979743513000000, 29028055076199924394129438729376500000),
  (9995133334336704919255355534919792000000, 12487409178807928879730193786330630000)]

/-- n = 55. quadrature_lib.cpp:1521-1575. -/
def b55 : List (Nat × Nat) := [
  (4692902175907292602840802403077930000, 12041618099898944095850967445626700000),
  (24710110762940624784054417468987990000, 27993161332803836770417084359299410000),
  (60655294005554007388071577632632080000, 43878730535292640886948003416588830000),
  (112421322480053955703916968296348800000, 59625803599243060853762765787948970000),
  (179843357034324006107316843113154000000, 75182291667558941065754494509686210000),
  (262705659793946290700100761773540800000, 90498072603645312039841013217060880000),
  (360742876396041515918643653837068200000, 105524008340082270601046528118491900000),
  (473640996279999871090442876851877800000, 120211940048628110038957864643017200000),
  (601038387900522469662045465879568100000, 134514807281981353335600143268896100000),
  (742526966914227642698773395164964800000, 148386788825805206106482530934426900000),
  (897653507203395437728793574826388300000, 161783446130929158423527959378884900000),
  (1065921094361888170511818745309793000000, 174661864367949437036341134013532400000),
  (1246790718259890456625061586463445000000, 186980789339827726414577992912288000000),
  (1439683000066810805453249039394163000000, 198700759371685898047319159516999200000),
  (1643980048400868021018366359969922000000, 209784231588593811976036583460720800000),
  (1859027438750359299546818924835123000000, 220195702108032949475840428266464600000),
  (2084136309869839485128475922061567000000, 229901819731419190519524304360373100000),
  (2318585570458283516397002135782012000000, 238871492756003477750183573580279600000),
  (2561624209062629513958681632303222000000, 247075988557758697403792695080195800000),
  (2812473699814127040957594878512667000000, 254489025622469896123876371440417200000),
  (3070330496295102851220757280437050000000, 261086857728160422821967816406474700000),
  (3334368605549880574052642548835190000000, 266848350008027363617852578180489600000),
  (3603742233995967307250687744121645000000, 271755046649555510351610590768860500000),
  (3877588496760772582999054687985368000000, 275791230012543437983255697803333600000),
  (4155030181765633958585787532441489000000, 278943970976420435514680035549598400000),
  (4435178559703353667057810380556439000000, 281203170355421840141395440450989100000),
  (4717136230908316118363311945534458000000, 282561591248860007003291838175945400000),
  (5000000000000000000000000000000000000000, 283014882222802127200528809906220000000),
  (5282863769091683881636688054465542000000, 282561591248860007003291838175945400000),
  (5564821440296646332942189619443561000000, 281203170355421840141395440450989100000),
  (5844969818234366041414212467558511000000, 278943970976420435514680035549598400000),
  (6122411503239227417000945312014633000000, 275791230012543437983255697803333600000),
  (6396257766004032692749312255878355000000, 271755046649555510351610590768860500000),
  (6665631394450119425947357451164810000000, 266848350008027363617852578180489600000),
  (6929669503704897148779242719562950000000, 261086857728160422821967816406474700000),
  (7187526300185872959042405121487333000000, 254489025622469896123876371440417200000),
  (7438375790937370486041318367696778000000, 247075988557758697403792695080195800000),
  (7681414429541716483602997864217988000000, 238871492756003477750183573580279600000),
  (7915863690130160514871524077938433000000, 229901819731419190519524304360373100000),
  (8140972561249640700453181075164877000000, 220195702108032949475840428266464600000),
  (8356019951599131978981633640030078000000, 209784231588593811976036583460720800000),
  (8560316999933189194546750960605837000000, 198700759371685898047319159516999200000),
  (8753209281740109543374938413536555000000, 186980789339827726414577992912288000000),
  (8934078905638111829488181254690207000000, 174661864367949437036341134013532400000),
  (9102346492796604562271206425173612000000, 161783446130929158423527959378884900000),
  (9257473033085772357301226604835035000000, 148386788825805206106482530934426900000),
  (9398961612099477530337954534120432000000, 134514807281981353335600143268896100000),
  (9526359003720000128909557123148123000000, 120211940048628110038957864643017200000),
  (9639257123603958484081356346162932000000, 105524008340082270601046528118491900000),
  (9737294340206053709299899238226459000000, 90498072603645312039841013217060880000),
  (9820156642965675993892683156886846000000, 75182291667558941065754494509686210000),
  (9887578677519946044296083031703651000000, 59625803599243060853762765787948970000),
  (9939344705994445992611928422367367000000, 43878730535292640886948003416588830000),
  (9975289889237059375215945582531012000000, 27993161332803836770417084359299410000),
  (9995307097824092707397159197596922000000, 12041618099898944095850967445626700000)]

/-- n = 56. quadrature_lib.cpp:1576-1631. -/
def b56 : List (Nat × Nat) := [
  (4528280992672078234230874545478694000, 11619276878866077505511382216979340000),
  (23843869594651263918456199505295110000, 27012611230076688806556304720603690000),
  (58531422299192444550374182382568910000, 42345315816539438308135561875040630000),
  (108491454298718083115047242309059200000, 57549121701916910868863796622485470000),
  (173570490472549081869025119724521600000, 72575446390107359038853702665064990000),
  (253567602190186821766311986025359500000, 87377564557004732524796844527285440000),
  (348235598762518497263636383541995600000, 101909649412012863174029918334666500000),
  (457281897896722545769463550213791300000, 116126757812826584686290787883942200000),
  (580369458360862296054938570953566500000, 129984935291959760959097161036361900000),
  (717117831186256822985043066165647100000, 143441342369113708649429422151971300000),
  (867104339285591741639365127715748400000, 156454383736552239339177388965126500000),
  (1029865385530667509849958457569998000000, 168983835578058806477133156127235300000),
  (1204897886474355488987933527770531000000, 180990969361575930179422341444431500000),
  (1391660827749059582387031064762233000000, 192438671296238312434127958116906600000),
  (1589576936527647722492192610150818000000, 203291556923722589400625113894263800000),
  (1798034465964965528660307019685935000000, 213516080423335432555192861812385400000),
  (2016389086146683399479323914307958000000, 223080638263461416067075964638118800000),
  (2243965875722326906228182427118417000000, 231955666865009483810950955332480200000),
  (2480061408078091429023877993906809000000, 240113733968001290603677528334998500000),
  (2723945925607702105255842093376952000000, 247529623415237894599830232154227900000),
  (2974865595364543609405665186985385000000, 254180413088992402800620092350993100000),
  (3232044839125227395151463364833838000000, 260045545758706999215261324137423900000),
  (3494688730663896654734528834373828000000, 265106892620053819839957793038457400000),
  (3761985452828313980135167225147365000000, 269348809328572428544772052033490000000),
  (4033108806823623708799076384936579000000, 272758184354447105308753274450451100000),
  (4307220765948118789935567097807547000000, 275324479508812128981522987739251500000),
  (4583474065887823127798563222796688000000, 277039762516225616088966959219550300000),
  (4861014823563622814529694016125398000000, 277898731532571979231367134175806100000),
  (5138985176436377185470305983874603000000, 277898731532571979231367134175806100000),
  (5416525934112176872201436777203312000000, 277039762516225616088966959219550300000),
  (5692779234051881210064432902192453000000, 275324479508812128981522987739251500000),
  (5966891193176376291200923615063421000000, 272758184354447105308753274450451100000),
  (6238014547171686019864832774852635000000, 269348809328572428544772052033490000000),
  (6505311269336103345265471165626171000000, 265106892620053819839957793038457400000),
  (6767955160874772604848536635166162000000, 260045545758706999215261324137423900000),
  (7025134404635456390594334813014615000000, 254180413088992402800620092350993100000),
  (7276054074392297894744157906623048000000, 247529623415237894599830232154227900000),
  (7519938591921908570976122006093191000000, 240113733968001290603677528334998500000),
  (7756034124277673093771817572881583000000, 231955666865009483810950955332480200000),
  (7983610913853316600520676085692042000000, 223080638263461416067075964638118800000),
  (8201965534035034471339692980314065000000, 213516080423335432555192861812385400000),
  (8410423063472352277507807389849181000000, 203291556923722589400625113894263800000),
  (8608339172250940417612968935237767000000, 192438671296238312434127958116906600000),
  (8795102113525644511012066472229469000000, 180990969361575930179422341444431500000),
  (8970134614469332490150041542430003000000, 168983835578058806477133156127235300000),
  (9132895660714408258360634872284252000000, 156454383736552239339177388965126500000),
  (9282882168813743177014956933834352000000, 143441342369113708649429422151971300000),
  (9419630541639137703945061429046434000000, 129984935291959760959097161036361900000),
  (9542718102103277454230536449786208000000, 116126757812826584686290787883942200000),
  (9651764401237481502736363616458004000000, 101909649412012863174029918334666500000),
  (9746432397809813178233688013974641000000, 87377564557004732524796844527285440000),
  (9826429509527450918130974880275478000000, 72575446390107359038853702665064990000),
  (9891508545701281916884952757690941000000, 57549121701916910868863796622485470000),
  (9941468577700807555449625817617432000000, 42345315816539438308135561875040630000),
  (9976156130405348736081543800494705000000, 27012611230076688806556304720603690000),
  (9995471719007327921765769125454521000000, 11619276878866077505511382216979340000)]

/-- n = 57. quadrature_lib.cpp:1632-1688. -/
def b57 : List (Nat × Nat) := [
  (4372171873685747139950752228750500000, 11218769361253314548673934113175000000),
  (23022381607848444324374863187905040000, 26082667373593896952533149357100490000),
  (56517111748889755751208008080722510000, 40890800339106163131054990651896900000),
  (104763866452656431005895623167461100000, 55578818661679950728377243840950510000),
  (167619574140566604425707080288334100000, 70101353953767780851235756690751560000),
  (244896867760616290440479446974048200000, 84414795117207745175004107834166130000),
  (336365194664491519496229228513216900000, 98476353497442601912112261367573930000),
  (441751607393043936357847191901648500000, 112244039453882190398446194225454900000),
  (560741605588893352434999261790691200000, 125676754954590613236368940704777300000),
  (692980083689765276388790590973926300000, 138734407010900961606289750191818800000),
  (838072394247804395854945520673984100000, 151378024213469997292452994165686400000),
  (995585527263908789619956406025257200000, 163569871831857842712450549551967800000),
  (1165049403202749022541419279909338000000, 175273563911563087528754852982750600000),
  (1345958276277383385863276646316109000000, 186454171622086586773676319978495000000),
  (1537772244002411304797581557779948000000, 197078327377400570449763604005277400000),
  (1739918858595115543753190796021458000000, 207114324354005551815984526368052500000),
  (1951794835456423172880755490376297000000, 216532211081075982982160541642130700000),
  (2172767853653816204905072235973798000000, 225303880806905788986067647629164700000),
  (2402178443044061968424230900968928000000, 233403155368207518919204463894167900000),
  (2639341952410121452059699589753826000000, 240805863308438756344255258784083900000),
  (2883550592742180245199878232642378000000, 247489912010098394969189722496939900000),
  (3134075549567027707239328019275555000000, 253435353624637043283202127818183300000),
  (3390169158023106797048960420973014000000, 258624444602589123603119543325734500000),
  (3651067134190806171183271951001783000000, 263041698645887162201156908204421300000),
  (3915990856019379817931930120102204000000, 266673932924095792132884889957203400000),
  (4184149687043678744783598108392440000000, 269510307416492873214047408653007900000),
  (4454743335956060995107367393445105000000, 271542357262493215693733864773958000000),
  (4726964244991765878900847201313338000000, 272764018023809432400694976820982700000),
  (5000000000000000000000000000000000000000, 273171643782920120314206939940260400000),
  (5273035755008234121099152798686663000000, 272764018023809432400694976820982700000),
  (5545256664043939004892632606554895000000, 271542357262493215693733864773958000000),
  (5815850312956321255216401891607561000000, 269510307416492873214047408653007900000),
  (6084009143980620182068069879897796000000, 266673932924095792132884889957203400000),
  (6348932865809193828816728048998217000000, 263041698645887162201156908204421300000),
  (6609830841976893202951039579026986000000, 258624444602589123603119543325734500000),
  (6865924450432972292760671980724445000000, 253435353624637043283202127818183300000),
  (7116449407257819754800121767357622000000, 247489912010098394969189722496939900000),
  (7360658047589878547940300410246174000000, 240805863308438756344255258784083900000),
  (7597821556955938031575769099031071000000, 233403155368207518919204463894167900000),
  (7827232146346183795094927764026203000000, 225303880806905788986067647629164700000),
  (8048205164543576827119244509623703000000, 216532211081075982982160541642130700000),
  (8260081141404884456246809203978542000000, 207114324354005551815984526368052500000),
  (8462227755997588695202418442220053000000, 197078327377400570449763604005277400000),
  (8654041723722616614136723353683892000000, 186454171622086586773676319978495000000),
  (8834950596797250977458580720090661000000, 175273563911563087528754852982750600000),
  (9004414472736091210380043593974743000000, 163569871831857842712450549551967800000),
  (9161927605752195604145054479326016000000, 151378024213469997292452994165686400000),
  (9307019916310234723611209409026073000000, 138734407010900961606289750191818800000),
  (9439258394411106647565000738209309000000, 125676754954590613236368940704777300000),
  (9558248392606956063642152808098351000000, 112244039453882190398446194225454900000),
  (9663634805335508480503770771486783000000, 98476353497442601912112261367573930000),
  (9755103132239383709559520553025952000000, 84414795117207745175004107834166130000),
  (9832380425859433395574292919711666000000, 70101353953767780851235756690751560000),
  (9895236133547343568994104376832538000000, 55578818661679950728377243840950510000),
  (9943482888251110244248791991919277000000, 40890800339106163131054990651896900000),
  (9976977618392151555675625136812095000000, 26082667373593896952533149357100490000),
  (9995627828126314252860049247771250000000, 11218769361253314548673934113175000000)]

/-- n = 58. quadrature_lib.cpp:1689-1746. -/
def b58 : List (Nat × Nat) := [
  (4223997963066967786314779076971386000, 10838616248137249715271714624923350000),
  (22242617013545486986142369100269340000, 25199908063251215425087505873112630000),
  (54604958757786817500448723622789540000, 39509869249993373770083728374238600000),
  (101224926528248454460918328037009700000, 53707767664393870584281809568309190000),
  (161968987485379549233496076893969300000, 67751185564944060725894832008809190000),
  (236662212405654542785772449885348400000, 81599371174854825260604152097854560000),
  (325089312058703257595783826168762400000, 95212327309467043278938297410537890000),
  (426995357178237296567471750512391000000, 108550780700731178834584047475591500000),
  (542086539889849118000585895936012300000, 121576263624819762701293803128992800000),
  (670031029625962603624643837439561500000, 134251215909909342379537393390724600000),
  (810459933303133418239510396891878200000, 146539090220802453591970134442219400000),
  (962968360434559294755014238963023800000, 158404456269046636601460198109751300000),
  (1127116591251736273669299767515866000000, 169813102467080053988637775922923700000),
  (1302431344899788660766913825744836000000, 180732134335436352703904284879276100000),
  (1488407144230459432601213492708993000000, 191130069229292166147295172285742700000),
  (1684507773339373667834918501232171000000, 200976927049338984440383754134411800000),
  (1890167823684604444830079706272545000000, 210244316647910629972849909586272100000),
  (2104794324348874847550114414319583000000, 218905517668201255195128461741680000000),
  (2327768451755762068000987912873978000000, 226935557574099012519902680444330200000),
  (2558447313916407681922237136316073000000, 234311283645131734592090390189600000000),
  (2796165804065802174031484688928478000000, 241011429727088742032852030549334600000),
  (3040238518346234248143915293934947000000, 247016677544811964332554328563506700000),
  (3289961732010023693758158662580015000000, 252309712399765626488299107838158900000),
  (3544615428444454052334873658428484000000, 256875273091428627372574103055326700000),
  (3803465375169232727855257454573326000000, 260700195918349094856302780300359600000),
  (4065765240821193393128080592679888000000, 263773452631854167148228836157615800000),
  (4330758747022665714888115760627295000000, 266086182232895070517404921886923500000),
  (4597681848929286353450761038097484000000, 267631716520291260503054069430850400000),
  (4865764938170288220983306552413100000000, 268405599316674244319529776528623300000),
  (5134235061829711779016693447586900000000, 268405599316674244319529776528623300000),
  (5402318151070713646549238961902516000000, 267631716520291260503054069430850400000),
  (5669241252977334285111884239372704000000, 266086182232895070517404921886923500000),
  (5934234759178806606871919407320112000000, 263773452631854167148228836157615800000),
  (6196534624830767272144742545426674000000, 260700195918349094856302780300359600000),
  (6455384571555545947665126341571516000000, 256875273091428627372574103055326700000),
  (6710038267989976306241841337419985000000, 252309712399765626488299107838158900000),
  (6959761481653765751856084706065053000000, 247016677544811964332554328563506700000),
  (7203834195934197825968515311071522000000, 241011429727088742032852030549334600000),
  (7441552686083592318077762863683927000000, 234311283645131734592090390189600000000),
  (7672231548244237931999012087126022000000, 226935557574099012519902680444330200000),
  (7895205675651125152449885585680417000000, 218905517668201255195128461741680000000),
  (8109832176315395555169920293727455000000, 210244316647910629972849909586272100000),
  (8315492226660626332165081498767828000000, 200976927049338984440383754134411800000),
  (8511592855769540567398786507291007000000, 191130069229292166147295172285742700000),
  (8697568655100211339233086174255163000000, 180732134335436352703904284879276100000),
  (8872883408748263726330700232484133000000, 169813102467080053988637775922923700000),
  (9037031639565440705244985761036976000000, 158404456269046636601460198109751300000),
  (9189540066696866581760489603108121000000, 146539090220802453591970134442219400000),
  (9329968970374037396375356162560438000000, 134251215909909342379537393390724600000),
  (9457913460110150881999414104063988000000, 121576263624819762701293803128992800000),
  (9573004642821762703432528249487609000000, 108550780700731178834584047475591500000),
  (9674910687941296742404216173831237000000, 95212327309467043278938297410537890000),
  (9763337787594345457214227550114652000000, 81599371174854825260604152097854560000),
  (9838031012514620450766503923106031000000, 67751185564944060725894832008809190000),
  (9898775073471751545539081671962990000000, 53707767664393870584281809568309190000),
  (9945395041242213182499551276377210000000, 39509869249993373770083728374238600000),
  (9977757382986454513013857630899731000000, 25199908063251215425087505873112630000),
  (9995776002036933032213685220923029000000, 10838616248137249715271714624923350000)]

/-- n = 59. quadrature_lib.cpp:1747-1805. -/
def b59 : List (Nat × Nat) := [
  (4083230453526581217879902476609106000, 10477461422706117013503657443200240000),
  (21501798083770176563990882832758440000, 24361195841326423842910005664619940000),
  (52788174331345341089080324886470890000, 38197647267437875713503414873771720000),
  (97862130216421557751960092983661030000, 51929427504979310968989372054915370000),
  (156598891591092343231833301637189700000, 65516831531725955091597732421084130000),
  (228834953115244720683834439071750400000, 78921736565407330736602401986245740000),
  (314369048232730702974307644783550500000, 92106713768050146803078755282226160000),
  (412962806059223593237292573923770900000, 105034991442185936752307366093346300000),
  (524341441282639573178515852687703700000, 117670526968566817126376800391788300000),
  (648194528535588695182868834479273800000, 129978098656492500933252534008539500000),
  (784176870915638992648245230138816600000, 141923401002673989525764346676942800000),
  (931909463558942142824551130893997600000, 153473139180558416198751640962404000000),
  (1090980550688195471836605936162587000000, 164595121355226388787556321767994200000),
  (1260946773606798840553712104933938000000, 175258348182000543918591794805391400000),
  (1441334406614011342020421390170453000000, 185433099094354613459189585176387000000),
  (1631640677475313864879863936223731000000, 195091015080800047515153886056427800000),
  (1831335168805749512437095349124960000000, 204205177693433538301010540447346600000),
  (2039861296479849277679119201217328000000, 212750184055338193336541002423565300000),
  (2256637860958018078138718498064971000000, 220702217651486903453990423665405000000),
  (2481060667211410106159563597713456000000, 228039114702548849159341065791871000000),
  (2712504208733666548868923697825193000000, 234740425934810095965798682414645500000),
  (2950323410947905166385881531220604000000, 240787473573032201940734146429679100000),
  (3193855429151025950038437738329755000000, 246163403396809928898468100075121200000),
  (3442421495984931498408199254471251000000, 250853231714984514053602152210828600000),
  (3695328813285941441946918662928608000000, 254843887126969584251239844968405100000),
  (3951872483039817275383166046842544000000, 258124246954457410732199698867114100000),
  (4211337472060710159423910718642229000000, 260685168241876956919936041539091000000),
  (4473000604918279280815428061190654000000, 262519513239143695254706610071442300000),
  (4736132579558449980241598356983307000000, 263622169295639659806521244353062600000),
  (5000000000000000000000000000000000000000, 263990063109952107077561662154276400000),
  (5263867420441550019758401643016693000000, 263622169295639659806521244353062600000),
  (5526999395081720719184571938809346000000, 262519513239143695254706610071442300000),
  (5788662527939289840576089281357772000000, 260685168241876956919936041539091000000),
  (6048127516960182724616833953157456000000, 258124246954457410732199698867114100000),
  (6304671186714058558053081337071392000000, 254843887126969584251239844968405100000),
  (6557578504015068501591800745528749000000, 250853231714984514053602152210828600000),
  (6806144570848974049961562261670245000000, 246163403396809928898468100075121200000),
  (7049676589052094833614118468779396000000, 240787473573032201940734146429679100000),
  (7287495791266333451131076302174808000000, 234740425934810095965798682414645500000),
  (7518939332788589893840436402286544000000, 228039114702548849159341065791871000000),
  (7743362139041981921861281501935029000000, 220702217651486903453990423665405000000),
  (7960138703520150722320880798782672000000, 212750184055338193336541002423565300000),
  (8168664831194250487562904650875039000000, 204205177693433538301010540447346600000),
  (8368359322524686135120136063776268000000, 195091015080800047515153886056427800000),
  (8558665593385988657979578609829547000000, 185433099094354613459189585176387000000),
  (8739053226393201159446287895066062000000, 175258348182000543918591794805391400000),
  (8909019449311804528163394063837413000000, 164595121355226388787556321767994200000),
  (9068090536441057857175448869106002000000, 153473139180558416198751640962404000000),
  (9215823129084361007351754769861184000000, 141923401002673989525764346676942800000),
  (9351805471464411304817131165520726000000, 129978098656492500933252534008539500000),
  (9475658558717360426821484147312296000000, 117670526968566817126376800391788300000),
  (9587037193940776406762707426076229000000, 105034991442185936752307366093346300000),
  (9685630951767269297025692355216449000000, 92106713768050146803078755282226160000),
  (9771165046884755279316165560928250000000, 78921736565407330736602401986245740000),
  (9843401108408907656768166698362810000000, 65516831531725955091597732421084130000),
  (9902137869783578442248039907016338000000, 51929427504979310968989372054915370000),
  (9947211825668654658910919675113529000000, 38197647267437875713503414873771720000),
  (9978498201916229823436009117167242000000, 24361195841326423842910005664619940000),
  (9995916769546473418782120097523390000000, 10477461422706117013503657443200240000)]

/-- n = 60. quadrature_lib.cpp:1806-1865. -/
def b60 : List (Nat × Nat) := [
  (3949383862819889828852071011753713000, 10134059844368792482158551049461100000),
  (20797374405809130616266433112796870000, 23563649634767843204474108570386090000),
  (51060523888891413163605064919519900000, 36949655816727277657584780110430250000),
  (94663991237009071907116000866149640000, 50237785911439921789428821885286130000),
  (151491056174736331392279505431028800000, 63390832384079800657476896347572060000),
  (221388720800019463013840770851502300000, 76373092983923996533630190494126670000),
  (304168619417883752522904941951474600000, 89149505071038601301981306241743150000),
  (399607619111862235716715687400516000000, 101685603647286433875160737085531300000),
  (507448445949770290311053352136858400000, 113947584719989099318917290964501000000),
  (627400386765508424353459500437820700000, 125902388107606241897854829861806800000),
  (759140076070351837547422525028122100000, 137517783749623958176115988193111500000),
  (902312369189271203157409457401381900000, 148762457503944726204182423367438500000),
  (1056531300338679727150276001113921000000, 159606095096481644747294497683802300000),
  (1221381123467071565655789666988134000000, 170019463624732114174572007776293900000),
  (1396417433221348002819894694932395000000, 179974490255422515332893231440312000000),
  (1581168363093222813885348803878514000000, 189444337846217220154703971046380200000),
  (1775135857552614660932760517897777000000, 198403477261903997350614174058550400000),
  (1977797014757448182778956118443991000000, 206827756177923778065819184033294700000),
  (2188605496230277304108637062570007000000, 214694464179678209771156103281914700000),
  (2406992999707151262910553257576394000000, 221982393978935566638920820456886600000),
  (2632370791191464444459184731236026000000, 228671898580572433235982276454546400000),
  (2864131292084608053462735732348441000000, 234744944244561024235065781973507800000),
  (3101649717116010114225236647390561000000, 240185159099855904818333263643668000000),
  (3344285758657759028738235173247236000000, 244977877278784176947378434289471400000),
  (3591385312883691541546525698302792000000, 249110178452750905055796154468516700000),
  (3842282243119853309948276843266223000000, 252570922662546872991193678708268200000),
  (4096300175632872913795615293690737000000, 255350780349278137022745603672455300000),
  (4352754323015274984267779176752121000000, 257442257504904669975221985885271600000),
  (4610953330252317152903572464588874000000, 258839715874550937719018215144118600000),
  (4870201138493761007054148072998276000000, 259539388156103198664324691811347900000),
  (5129798861506238992945851927001724000000, 259539388156103198664324691811347900000),
  (5389046669747682847096427535411127000000, 258839715874550937719018215144118600000),
  (5647245676984725015732220823247879000000, 257442257504904669975221985885271600000),
  (5903699824367127086204384706309263000000, 255350780349278137022745603672455300000),
  (6157717756880146690051723156733777000000, 252570922662546872991193678708268200000),
  (6408614687116308458453474301697208000000, 249110178452750905055796154468516700000),
  (6655714241342240971261764826752764000000, 244977877278784176947378434289471400000),
  (6898350282883989885774763352609439000000, 240185159099855904818333263643668000000),
  (7135868707915391946537264267651559000000, 234744944244561024235065781973507800000),
  (7367629208808535555540815268763974000000, 228671898580572433235982276454546400000),
  (7593007000292848737089446742423606000000, 221982393978935566638920820456886600000),
  (7811394503769722695891362937429993000000, 214694464179678209771156103281914700000),
  (8022202985242551817221043881556009000000, 206827756177923778065819184033294700000),
  (8224864142447385339067239482102223000000, 198403477261903997350614174058550400000),
  (8418831636906777186114651196121485000000, 189444337846217220154703971046380200000),
  (8603582566778651997180105305067605000000, 179974490255422515332893231440312000000),
  (8778618876532928434344210333011865000000, 170019463624732114174572007776293900000),
  (8943468699661320272849723998886079000000, 159606095096481644747294497683802300000),
  (9097687630810728796842590542598618000000, 148762457503944726204182423367438500000),
  (9240859923929648162452577474971878000000, 137517783749623958176115988193111500000),
  (9372599613234491575646540499562179000000, 125902388107606241897854829861806800000),
  (9492551554050229709688946647863142000000, 113947584719989099318917290964501000000),
  (9600392380888137764283284312599484000000, 101685603647286433875160737085531300000),
  (9695831380582116247477095058048525000000, 89149505071038601301981306241743150000),
  (9778611279199980536986159229148498000000, 76373092983923996533630190494126670000),
  (9848508943825263668607720494568972000000, 63390832384079800657476896347572060000),
  (9905336008762990928092883999133850000000, 50237785911439921789428821885286130000),
  (9948939476111108586836394935080480000000, 36949655816727277657584780110430250000),
  (9979202625594190869383733566887203000000, 23563649634767843204474108570386090000),
  (9996050616137180110171147928988246000000, 10134059844368792482158551049461100000)]

/-- n = 61. quadrature_lib.cpp:1866-1926. -/
def b61 : List (Nat × Nat) := [
  (3822011843182641340688702154345910000, 9807266808351413358865322309635521000),
  (20127000924398828659936196438558360000, 22804620030062085922694662898713470000),
  (49416273837414745172341571500417670000, 35761774958745447929169965458471390000),
  (91619943579814601574137296243402720000, 48627309151780668680683358777850210000),
  (146628705834085458762957732260448600000, 61366317539060523146389001797630570000),
  (214299240435079543139598562893923700000, 73945329424689572730892578907440960000),
  (294455066593194262612280695111054900000, 86331464938068717972166063862183130000),
  (386887093085223693712242497220772500000, 98492388730505906652589151063423230000),
  (491354187629994146789799786582444300000, 110396365741595220012378828140908200000),
  (607583813925594837605262430533236700000, 122012335937721014576703298662337400000),
  (735272745761682772175765476629147500000, 133309992620754448314053534224839800000),
  (874087859456700246678590537745762200000, 144259860440917007521708877727951300000),
  (1023667003588201754239755986237269000000, 154833371841986974123489733062446900000),
  (1183619944138439014270426657528248000000, 165002941379537053163618417205022500000),
  (1353529382752674451555216549322341000000, 174742037582666755454259596046096500000),
  (1532952045527544222504078180198841000000, 184025252115774086921605214320337400000),
  (1721419839524645641504071110818465000000, 192828366035040863730760238148268600000),
  (1918441074010391376451915703357045000000, 201128412954991236838199918787558000000),
  (2123501743245846906998150090275136000000, 208903738954442460333377861755364900000),
  (2336066867485373671807591418134642000000, 216134059062480489505218229113414100000),
  (2555581888688739405896507442870852000000, 222800510175417441357707099155441900000),
  (2781474117307341990022053494670887000000, 228885700265729796856699169234123800000),
  (3013154226371216954108540763157054000000, 234373753754045329882147227942953800000),
  (3250017788979665827332827614689531000000, 239250352925478035809167137593498600000),
  (3491446855184846436977567372715114000000, 243502775282057630437650441573528500000),
  (3736811564154732520831545683327974000000, 247119926733677949699843883255582500000),
  (3985471787409707503865263983284715000000, 250092370540891267125258075031793100000),
  (4236778798845923497352466191132613000000, 252412351933987023240722325940756300000),
  (4490076967188629655213957976178172000000, 254073818344091716038502646117393200000),
  (4744705466460128253165562496905496000000, 255072435193486317718675402869259900000),
  (5000000000000000000000000000000000000000, 255405597203931089889605478031549300000),
  (5255294533539871746834437503094504000000, 255072435193486317718675402869259900000),
  (5509923032811370344786042023821828000000, 254073818344091716038502646117393200000),
  (5763221201154076502647533808867388000000, 252412351933987023240722325940756300000),
  (6014528212590292496134736016715285000000, 250092370540891267125258075031793100000),
  (6263188435845267479168454316672026000000, 247119926733677949699843883255582500000),
  (6508553144815153563022432627284886000000, 243502775282057630437650441573528500000),
  (6749982211020334172667172385310469000000, 239250352925478035809167137593498600000),
  (6986845773628783045891459236842946000000, 234373753754045329882147227942953800000),
  (7218525882692658009977946505329113000000, 228885700265729796856699169234123800000),
  (7444418111311260594103492557129148000000, 222800510175417441357707099155441900000),
  (7663933132514626328192408581865358000000, 216134059062480489505218229113414100000),
  (7876498256754153093001849909724864000000, 208903738954442460333377861755364900000),
  (8081558925989608623548084296642955000000, 201128412954991236838199918787558000000),
  (8278580160475354358495928889181535000000, 192828366035040863730760238148268600000),
  (8467047954472455777495921819801159000000, 184025252115774086921605214320337400000),
  (8646470617247325548444783450677658000000, 174742037582666755454259596046096500000),
  (8816380055861560985729573342471752000000, 165002941379537053163618417205022500000),
  (8976332996411798245760244013762731000000, 154833371841986974123489733062446900000),
  (9125912140543299753321409462254237000000, 144259860440917007521708877727951300000),
  (9264727254238317227824234523370852000000, 133309992620754448314053534224839800000),
  (9392416186074405162394737569466763000000, 122012335937721014576703298662337400000),
  (9508645812370005853210200213417556000000, 110396365741595220012378828140908200000),
  (9613112906914776306287757502779228000000, 98492388730505906652589151063423230000),
  (9705544933406805737387719304888945000000, 86331464938068717972166063862183130000),
  (9785700759564920456860401437106076000000, 73945329424689572730892578907440960000),
  (9853371294165914541237042267739552000000, 61366317539060523146389001797630570000),
  (9908380056420185398425862703756597000000, 48627309151780668680683358777850210000),
  (9950583726162585254827658428499583000000, 35761774958745447929169965458471390000),
  (9979872999075601171340063803561442000000, 22804620030062085922694662898713470000),
  (9996177988156817358659311297845654000000, 9807266808351413358865322309635521000)]

/-- n = 62. quadrature_lib.cpp:1927-1988. -/
def b62 : List (Nat × Nat) := [
  (3700703456114851507957674821005144000, 9496028397568452401986719304675408000),
  (19488518418664335574257847619142520000, 22081667284654524066370621277453070000),
  (47850144053548237859644690696596780000, 34630209509154804358514120496284810000),
  (88720254513816752544484359951037500000, 47092897142101938189687817032832330000),
  (141996383141740967764102587298471000000, 59436950585052509724094694833990020000),
  (207544135130364539852197624170145200000, 71630959119032588837014411547072940000),
  (285197993038357480868175941883242100000, 83644058950886581442752358920462420000),
  (374761821818981223863499346214757100000, 95445883292865993662518562411419180000),
  (476009387394532671207571987858121600000, 107006611388349844205895449824526500000),
  (588684935840513184636566878220851100000, 118297036043413962872584003252673300000),
  (712503842439645385907983397276622600000, 129288634770123490135477832767552800000),
  (847153331979975743270344452613959000000, 139953640816573187706191463770206100000),
  (992293269480118142307472427523068300000, 150265112869949350385047346135311700000),
  (1147557019722903405045276525024759000000, 160197002908123390531696186390781700000),
  (1312552373584216250696078617492803000000, 169724221897052725455587386271180400000),
  (1486862538888514724395136174700066000000, 178822703113840706427936891808609800000),
  (1670047193322602765012269829588059000000, 187469462911400149928092817593965500000),
  (1861643596765574096365226175419186000000, 195642658759815420616554009113044500000),
  (2061167760234563309989252249390061000000, 203321644412087204841425087583317000000),
  (2268115668498744520919498077381832000000, 210487022051925483215113134519194300000),
  (2481964553276220220414895970341919000000, 217120691290237097900346152169721500000),
  (2702174213799433023964280109621237000000, 223205894885622071468223459045688900000),
  (2928188381414369759352056246711943000000, 228727261072850903886161361488481000000),
  (3159436124767177351684890845237460000000, 233670842392077624011035275397423900000),
  (3395333292029029979629491994982718000000, 238024150920506161352250441339332100000),
  (3635283986516368284056581860132595000000, 241776189817388364174015907392295100000),
  (3878682071979172341655043033275586000000, 244917481102589185524255635131086900000),
  (4124912703754921857221562880478820000000, 247440089598496462639329054523870000000),
  (4373353881920515956901755002501369000000, 249337642974761971223806553174214100000),
  (4623378022518828336180865304410646000000, 250605347845216440374020500507654400000),
  (4874353542890896926364558620004265000000, 251240001876281408442014744975678300000),
  (5125646457109103073635441379995735000000, 251240001876281408442014744975678300000),
  (5376621977481171663819134695589355000000, 250605347845216440374020500507654400000),
  (5626646118079484043098244997498631000000, 249337642974761971223806553174214100000),
  (5875087296245078142778437119521180000000, 247440089598496462639329054523870000000),
  (6121317928020827658344956966724414000000, 244917481102589185524255635131086900000),
  (6364716013483631715943418139867405000000, 241776189817388364174015907392295100000),
  (6604666707970970020370508005017283000000, 238024150920506161352250441339332100000),
  (6840563875232822648315109154762540000000, 233670842392077624011035275397423900000),
  (7071811618585630240647943753288057000000, 228727261072850903886161361488481000000),
  (7297825786200566976035719890378763000000, 223205894885622071468223459045688900000),
  (7518035446723779779585104029658082000000, 217120691290237097900346152169721500000),
  (7731884331501255479080501922618168000000, 210487022051925483215113134519194300000),
  (7938832239765436690010747750609939000000, 203321644412087204841425087583317000000),
  (8138356403234425903634773824580813000000, 195642658759815420616554009113044500000),
  (8329952806677397234987730170411941000000, 187469462911400149928092817593965500000),
  (8513137461111485275604863825299933000000, 178822703113840706427936891808609800000),
  (8687447626415783749303921382507198000000, 169724221897052725455587386271180400000),
  (8852442980277096594954723474975240000000, 160197002908123390531696186390781700000),
  (9007706730519881857692527572476932000000, 150265112869949350385047346135311700000),
  (9152846668020024256729655547386041000000, 139953640816573187706191463770206100000),
  (9287496157560354614092016602723377000000, 129288634770123490135477832767552800000),
  (9411315064159486815363433121779149000000, 118297036043413962872584003252673300000),
  (9523990612605467328792428012141878000000, 107006611388349844205895449824526500000),
  (9625238178181018776136500653785243000000, 95445883292865993662518562411419180000),
  (9714802006961642519131824058116757000000, 83644058950886581442752358920462420000),
  (9792455864869635460147802375829855000000, 71630959119032588837014411547072940000),
  (9858003616858259032235897412701529000000, 59436950585052509724094694833990020000),
  (9911279745486183247455515640048963000000, 47092897142101938189687817032832330000),
  (9952149855946451762140355309303403000000, 34630209509154804358514120496284810000),
  (9980511481581335664425742152380858000000, 22081667284654524066370621277453070000),
  (9996299296543885148492042325178995000000, 9496028397568452401986719304675408000)]

/-- n = 63. quadrature_lib.cpp:1989-2051. -/
def b63 : List (Nat × Nat) := [
  (3585079854381098105319295355277566000, 9199372977885420585462227770219223000),
  (18879936110149456989033194268443080000, 21392541734318809330392055413113570000),
  (46357265539052665945526663976482890000, 33551458829800681259534653648644190000),
  (85955947031363825687442971541941520000, 45629843381633281770293227108799860000),
  (137579826512149885990196607115945100000, 57596880384400208753753030743090430000),
  (201102751205290364648229168705055000000, 69423063080578054124330431838121430000),
  (276369329794950985168123401862496600000, 81079392051691694411418364875655120000),
  (363195396890783972764843093374392400000, 92537322300806352046302729025790170000),
  (461368486107342209815234335420234100000, 103768806290195453876709767107366000000),
  (570648357460732868548507713433150600000, 114746355024449665744711597808852500000),
  (690767588179381402301940802844700000000, 125443102766724933093150690342216900000),
  (821432228402485782640961151921472800000, 135832871795489666125949197197063200000),
  (962322521132716199742670068183784400000, 145890236041402634727757510770143200000),
  (1113093685048138322183349050444786000000, 155590583111099087541079942785942800000),
  (1273376758410762910853391694812062000000, 164910174418896708828415898362296000000),
  (1442779502075770960742842311479926000000, 173826203226779388485902523213941100000),
  (1620887359425069549344483420152278000000, 182316850427286448152262048937708900000),
  (1807264470893173074998465230633118000000, 190361337921747783818191624639446200000),
  (2001454740611873821304955365656001000000, 197939979457720469924039640746011800000),
  (2202982952568574933661510999649726000000, 205034228798331993175550185045361500000),
  (2411355933549833759377612077368422000000, 211626725104079114912527427015136800000),
  (2626063760025978000388938450742526000000, 217701335415137953994821578522005800000),
  (2846581006024441996689555330406850000000, 223243194129706976851663347584066600000),
  (3072368028938760537611924888628009000000, 228238739381463043429429963042712600000),
  (3302872290127077987655827842028424000000, 232675746226918482551977093734766000000),
  (3537529707068742799819214222246665000000, 236543356561344595403024941694220000000),
  (3775766033770233186257977030375853000000, 239832105689975657055263780975661000000),
  (4016998266042466577211862714671412000000, 242533945489419239320450495729008000000),
  (4260636068210640157150804517235135000000, 244642264102559949723546807746074200000),
  (4506083217765273602351481652730389000000, 246151902118737803925215584940722700000),
  (4752739064419201863828830909740962000000, 247059165199590894835198230583523900000),
  (5000000000000000000000000000000000000000, 247361833119655104443346802104629700000),
  (5247260935580798136171169090259038000000, 247059165199590894835198230583523900000),
  (5493916782234726397648518347269611000000, 246151902118737803925215584940722700000),
  (5739363931789359842849195482764865000000, 244642264102559949723546807746074200000),
  (5983001733957533422788137285328588000000, 242533945489419239320450495729008000000),
  (6224233966229766813742022969624147000000, 239832105689975657055263780975661000000),
  (6462470292931257200180785777753335000000, 236543356561344595403024941694220000000),
  (6697127709872922012344172157971576000000, 232675746226918482551977093734766000000),
  (6927631971061239462388075111371990000000, 228238739381463043429429963042712600000),
  (7153418993975558003310444669593150000000, 223243194129706976851663347584066600000),
  (7373936239974021999611061549257474000000, 217701335415137953994821578522005800000),
  (7588644066450166240622387922631577000000, 211626725104079114912527427015136800000),
  (7797017047431425066338489000350274000000, 205034228798331993175550185045361500000),
  (7998545259388126178695044634343999000000, 197939979457720469924039640746011800000),
  (8192735529106826925001534769366882000000, 190361337921747783818191624639446200000),
  (8379112640574930450655516579847722000000, 182316850427286448152262048937708900000),
  (8557220497924229039257157688520074000000, 173826203226779388485902523213941100000),
  (8726623241589237089146608305187939000000, 164910174418896708828415898362296000000),
  (8886906314951861677816650949555214000000, 155590583111099087541079942785942800000),
  (9037677478867283800257329931816216000000, 145890236041402634727757510770143200000),
  (9178567771597514217359038848078527000000, 135832871795489666125949197197063200000),
  (9309232411820618597698059197155300000000, 125443102766724933093150690342216900000),
  (9429351642539267131451492286566850000000, 114746355024449665744711597808852500000),
  (9538631513892657790184765664579765000000, 103768806290195453876709767107366000000),
  (9636804603109216027235156906625608000000, 92537322300806352046302729025790170000),
  (9723630670205049014831876598137504000000, 81079392051691694411418364875655120000),
  (9798897248794709635351770831294945000000, 69423063080578054124330431838121430000),
  (9862420173487850114009803392884055000000, 57596880384400208753753030743090430000),
  (9914044052968636174312557028458059000000, 45629843381633281770293227108799860000),
  (9953642734460947334054473336023517000000, 33551458829800681259534653648644190000),
  (9981120063889850543010966805731556000000, 21392541734318809330392055413113570000),
  (9996414920145618901894680704644722000000, 9199372977885420585462227770219223000)]

/-- n = 64. quadrature_lib.cpp:2052-2115. -/
def b64 : List (Nat × Nat) := [
  (3474791321139302715471878271818173000, 8916403608482164736480395724859118000),
  (18299416140223603265377496618004520000, 20735166302812338176437678642757060000),
  (44933142616278396303088082783484250000, 32522289844891814280586801999906470000),
  (83318730576870215343503489215844640000, 44233799131819738615154573298652970000),
  (133365861050445181290732463238636700000, 55840697300655644092952465096040670000),
  (194956001739731405406929390514214100000, 67315239483593212990303833429778230000),
  (267943125707985919687592543263675900000, 78630152380123596609829976487699130000),
  (352154139340302120892549227203871700000, 89758578878486715425226510005596470000),
  (447389314607485971218096659958350600000, 100674115767651046861701583642719400000),
  (553422770024429470732979808635741700000, 111350869041916270796491651920775100000),
  (670003009229535901196083074649212300000, 121763512843554366690887752045344700000),
  (796853518737098186241542276520633200000, 131887348575273293358458963126126300000),
  (933673424386012201290383309568483300000, 141698363071297416137556526001186100000),
  (1080138205283292961948897373931158000000, 151173285362012394339870299097743800000),
  (1235900463697340516940681125571530000000, 160289641774257767927337521739493500000),
  (1400590749141945865755298910840264000000, 169025809185708046957827410553627300000),
  (1573818434728833787182208144843119000000, 177361066284411919053465733576229700000),
  (1755172643726713300711193840032976000000, 185275642701200230202075509047917000000),
  (1944223224138033748755735144907256000000, 192750765893078145644812484734045100000),
  (2140521768986829828580609416704057000000, 199768705663601706933284630641680100000),
  (2343602679900527271709930482277724000000, 206312816213117643050781487368190300000),
  (2552984271464735212607368464890393000000, 212367575618267945036698839544087000000),
  (2768169913732679560075261426205424000000, 217918622646617266884139304868687200000),
  (2988649210180041981521166143699206000000, 222952790818782815300673550154724500000),
  (3213899208311659420247786924768987000000, 227458139637090722398854984856345000000),
  (3443385640048945219212436507199216000000, 231423982906572086479766246161306000000),
  (3676564188956162918130179137449900000000, 234840914081050086626631428772905400000),
  (3912881781299964579251756255055887000000, 237700828574151543311411034721115900000),
  (4151777897880035909813431851258651000000, 239996942982291538640630899356730400000),
  (4392685903519397227648117682538761000000, 241723811174014785848847635790089300000),
  (4635034391061004802752285290298313000000, 242877337207517134673995333919890500000),
  (4878248536682877837455220785731422000000, 243454785045698601916826953673749300000),
  (5121751463317122162544779214268578000000, 243454785045698601916826953673749300000),
  (5364965608938995197247714709701687000000, 242877337207517134673995333919890500000),
  (5607314096480602772351882317461239000000, 241723811174014785848847635790089300000),
  (5848222102119964090186568148741349000000, 239996942982291538640630899356730400000),
  (6087118218700035420748243744944113000000, 237700828574151543311411034721115900000),
  (6323435811043837081869820862550100000000, 234840914081050086626631428772905400000),
  (6556614359951054780787563492800784000000, 231423982906572086479766246161306000000),
  (6786100791688340579752213075231013000000, 227458139637090722398854984856345000000),
  (7011350789819958018478833856300794000000, 222952790818782815300673550154724500000),
  (7231830086267320439924738573794576000000, 217918622646617266884139304868687200000),
  (7447015728535264787392631535109607000000, 212367575618267945036698839544087000000),
  (7656397320099472728290069517722277000000, 206312816213117643050781487368190300000),
  (7859478231013170171419390583295943000000, 199768705663601706933284630641680100000),
  (8055776775861966251244264855092745000000, 192750765893078145644812484734045100000),
  (8244827356273286699288806159967024000000, 185275642701200230202075509047917000000),
  (8426181565271166212817791855156881000000, 177361066284411919053465733576229700000),
  (8599409250858054134244701089159737000000, 169025809185708046957827410553627300000),
  (8764099536302659483059318874428470000000, 160289641774257767927337521739493500000),
  (8919861794716707038051102626068841000000, 151173285362012394339870299097743800000),
  (9066326575613987798709616690431516000000, 141698363071297416137556526001186100000),
  (9203146481262901813758457723479367000000, 131887348575273293358458963126126300000),
  (9329996990770464098803916925350788000000, 121763512843554366690887752045344700000),
  (9446577229975570529267020191364258000000, 111350869041916270796491651920775100000),
  (9552610685392514028781903340041649000000, 100674115767651046861701583642719400000),
  (9647845860659697879107450772796128000000, 89758578878486715425226510005596470000),
  (9732056874292014080312407456736325000000, 78630152380123596609829976487699130000),
  (9805043998260268594593070609485785000000, 67315239483593212990303833429778230000),
  (9866634138949554818709267536761363000000, 55840697300655644092952465096040670000),
  (9916681269423129784656496510784155000000, 44233799131819738615154573298652970000),
  (9955066857383721603696911917216516000000, 32522289844891814280586801999906470000),
  (9981700583859776396734622503381995000000, 20735166302812338176437678642757060000),
  (9996525208678860697284528121728182000000, 8916403608482164736480395724859118000)]

/-- n = 65. quadrature_lib.cpp:2116-2180. -/
def b65 : List (Nat × Nat) := [
  (3369514622935613671531943789260888000, 8646291256501254491697925731519527000),
  (17745259690754184721025308389346090000, 20107620860018681735393299764143480000),
  (43573619115991656390894094672240980000, 31539712894858772750944359519308250000),
  (80800939064825293111811092969669120000, 42900741334407299468179060795990840000),
  (129342300832244154625160563045585300000, 54163393947989843107570275636011480000),
  (189086226409723811440081267663824100000, 65301558199974231680841714609577380000),
  (259895359157962468131151296353567600000, 76289560732241551746326940723113920000),
  (341606858856253310171615063268069700000, 87102109988351242476828799845990520000),
  (434032797285768691317265395085280900000, 97714329183750314134187146565005500000),
  (536960597476305342883572301512498200000, 108101806424670314208271373337432200000),
  (650153525367964819029340209676593200000, 118240648456436183493904894969950900000),
  (773351235500348580287749796323938700000, 128107534690188791070424893467740800000),
  (906270370386742732830404313371007700000, 137679770442251719712498611635569300000),
  (1048605212539390784763097919629873000000, 146935338946553340313224296048868600000),
  (1200028387790001065630086234418909000000, 155852951900945712322159228883305300000),
  (1360191618352876604940131353534009000000, 164412098381842874920248190040711800000),
  (1528726523930041832236887600261776000000, 172593091992745293126106384296962900000),
  (1705245469031874334795296140195969000000, 180377116127826369660831352622267600000),
  (1889342454572998792087002240680989000000, 187746267241288549048861115991267100000),
  (2080594051697563433364227687840282000000, 194683596020255988083369031819735400000),
  (2278560375688864307272137601262465000000, 201173146365027669077231688716878700000),
  (2482786097724965588294784743044808000000, 207199992086201465113431496162716200000),
  (2692801492154274711510829499493881000000, 212750271233779013596085754013269000000),
  (2908123516882954953679004946235045000000, 217811217979002432661424108306993100000),
  (3128256924389669939956030545784880000000, 222371191975414872136617519999730300000),
  (3352695400812567961773566437935608000000, 226419705131501153285641202870899900000),
  (3580922730488756346911722870197616000000, 229947445733258484819466954089172400000),
  (3812413983267915967146437863390302000000, 232946299861167491511275683948463700000),
  (4046636721869286151125438204669977000000, 235409370052272611230034041450812000000),
  (4283052226505124144343751890070693000000, 237330991164427515763222293700129600000),
  (4521116733954012471738907227287761000000, 238706743406203107795194861132780000000),
  (4760282688234140712387351228550326000000, 239533462502479310156736445881131900000),
  (5000000000000000000000000000000000000000, 239809246972333090603538106845103800000),
  (5239717311765859287612648771449674000000, 239533462502479310156736445881131900000),
  (5478883266045987528261092772712239000000, 238706743406203107795194861132780000000),
  (5716947773494875855656248109929307000000, 237330991164427515763222293700129600000),
  (5953363278130713848874561795330023000000, 235409370052272611230034041450812000000),
  (6187586016732084032853562136609698000000, 232946299861167491511275683948463700000),
  (6419077269511243653088277129802384000000, 229947445733258484819466954089172400000),
  (6647304599187432038226433562064392000000, 226419705131501153285641202870899900000),
  (6871743075610330060043969454215120000000, 222371191975414872136617519999730300000),
  (7091876483117045046320995053764955000000, 217811217979002432661424108306993100000),
  (7307198507845725288489170500506119000000, 212750271233779013596085754013269000000),
  (7517213902275034411705215256955192000000, 207199992086201465113431496162716200000),
  (7721439624311135692727862398737535000000, 201173146365027669077231688716878700000),
  (7919405948302436566635772312159718000000, 194683596020255988083369031819735400000),
  (8110657545427001207912997759319011000000, 187746267241288549048861115991267100000),
  (8294754530968125665204703859804032000000, 180377116127826369660831352622267600000),
  (8471273476069958167763112399738224000000, 172593091992745293126106384296962900000),
  (8639808381647123395059868646465991000000, 164412098381842874920248190040711800000),
  (8799971612209998934369913765581091000000, 155852951900945712322159228883305300000),
  (8951394787460609215236902080370127000000, 146935338946553340313224296048868600000),
  (9093729629613257267169595686628992000000, 137679770442251719712498611635569300000),
  (9226648764499651419712250203676062000000, 128107534690188791070424893467740800000),
  (9349846474632035180970659790323406000000, 118240648456436183493904894969950900000),
  (9463039402523694657116427698487502000000, 108101806424670314208271373337432200000),
  (9565967202714231308682734604914719000000, 97714329183750314134187146565005500000),
  (9658393141143746689828384936731931000000, 87102109988351242476828799845990520000),
  (9740104640842037531868848703646433000000, 76289560732241551746326940723113920000),
  (9810913773590276188559918732336175000000, 65301558199974231680841714609577380000),
  (9870657699167755845374839436954415000000, 54163393947989843107570275636011480000),
  (9919199060935174706888188907030331000000, 42900741334407299468179060795990840000),
  (9956426380884008343609105905327759000000, 31539712894858772750944359519308250000),
  (9982254740309245815278974691610654000000, 20107620860018681735393299764143480000),
  (9996630485377064386328468056210740000000, 8646291256501254491697925731519527000)]

/-- n = 66. quadrature_lib.cpp:2181-2246. -/
def b66 : List (Nat × Nat) := [
  (3268950639110589635915077551232781000, 8388268720036192996657864697883729000),
  (17215894552236544389158531864172430000, 19508128208721241296142302011174120000),
  (42274848083121272341186562542487460000, 30600960092239681827839633799662620000),
  (78395475324299335547234433251347740000, 41626943829954507083627728369194280000),
  (125497861268570240720509201022107500000, 52560329938528773286884639124545880000),
  (183477065703713145175694179392062100000, 63376519906308409382225945245271850000),
  (252203768968823304537666111234579800000, 74051325013669800868212698913025930000),
  (331524637276037528136841726677278500000, 84560907361226085901751475508477470000),
  (421262685273964920247853839071749400000, 94881808613856629674335191909565090000),
  (521217677767180307695818289420160400000, 104990995459323128886655222165587100000),
  (631166579165276347994973873805762000000, 114865908676633279590493227195963200000),
  (750864052319918902689508586168635200000, 124484512573786863188654659251629200000),
  (880043006522061943264590197718599000000, 133825343771250009543964841536487900000),
  (1018415193770877147336351235080286000000, 142867558914659355914111486959796900000),
  (1165671852123401870652285192139180000000, 151590981094342595968203792908733700000),
  (1321484394752436002103815005731960000000, 159976144820234436356408604748502600000),
  (1485505143205629070818703754068336000000, 168004339430561163351744635985195600000),
  (1657368103245162036978564202420804000000, 175657650827362779503205481300218000000),
  (1836689781545184152980526851045184000000, 182919001440695472068449807453063200000),
  (2023070041429307708360328190130412000000, 189772188329708104745650496992818500000),
  (2216092995741384678825260927926514000000, 196201919334141650939064297448844600000),
  (2415327934858842432137122989139269000000, 202193847194774895629341879664733500000),
  (2620330287778815785190349927683908000000, 207734601566209406588672683437105200000),
  (2830642614133146658211521819203263000000, 212811818850278581594533693850660400000),
  (3045795624919085251224389275125800000000, 217414169783337393237876950085694600000),
  (3265309229668312255501226328365954000000, 221531384715765809523016775544393800000),
  (3488693607717819499919355424313535000000, 225154276527207501075964034186443600000),
  (3715450301192348885029002104406761000000, 228274761126365280602194211052922200000),
  (3945073327259605032627294255266577000000, 230885875489579877358332357865231200000),
  (4177050307176426963731747406206279000000, 232981793197920518129120689111470700000),
  (4410863609606620014426428486834673000000, 234557837438104138731270204761192200000),
  (4645991505659292043553181624318156000000, 235610491438223660927225848223271200000),
  (4881909333070377147318883391990191000000, 236137406314992774228166638691239100000),
  (5118090666929622852681116608009809000000, 236137406314992774228166638691239100000),
  (5354008494340707956446818375681844000000, 235610491438223660927225848223271200000),
  (5589136390393379985573571513165327000000, 234557837438104138731270204761192200000),
  (5822949692823573036268252593793722000000, 232981793197920518129120689111470700000),
  (6054926672740394967372705744733423000000, 230885875489579877358332357865231200000),
  (6284549698807651114970997895593239000000, 228274761126365280602194211052922200000),
  (6511306392282180500080644575686464000000, 225154276527207501075964034186443600000),
  (6734690770331687744498773671634046000000, 221531384715765809523016775544393800000),
  (6954204375080914748775610724874199000000, 217414169783337393237876950085694600000),
  (7169357385866853341788478180796737000000, 212811818850278581594533693850660400000),
  (7379669712221184214809650072316092000000, 207734601566209406588672683437105200000),
  (7584672065141157567862877010860732000000, 202193847194774895629341879664733500000),
  (7783907004258615321174739072073486000000, 196201919334141650939064297448844600000),
  (7976929958570692291639671809869588000000, 189772188329708104745650496992818500000),
  (8163310218454815847019473148954816000000, 182919001440695472068449807453063200000),
  (8342631896754837963021435797579196000000, 175657650827362779503205481300218000000),
  (8514494856794370929181296245931663000000, 168004339430561163351744635985195600000),
  (8678515605247563997896184994268040000000, 159976144820234436356408604748502600000),
  (8834328147876598129347714807860820000000, 151590981094342595968203792908733700000),
  (8981584806229122852663648764919714000000, 142867558914659355914111486959796900000),
  (9119956993477938056735409802281401000000, 133825343771250009543964841536487900000),
  (9249135947680081097310491413831365000000, 124484512573786863188654659251629200000),
  (9368833420834723652005026126194238000000, 114865908676633279590493227195963200000),
  (9478782322232819692304181710579840000000, 104990995459323128886655222165587100000),
  (9578737314726035079752146160928251000000, 94881808613856629674335191909565090000),
  (9668475362723962471863158273322721000000, 84560907361226085901751475508477470000),
  (9747796231031176695462333888765421000000, 74051325013669800868212698913025930000),
  (9816522934296286854824305820607938000000, 63376519906308409382225945245271850000),
  (9874502138731429759279490798977892000000, 52560329938528773286884639124545880000),
  (9921604524675700664452765566748653000000, 41626943829954507083627728369194280000),
  (9957725151916878727658813437457513000000, 30600960092239681827839633799662620000),
  (9982784105447763455610841468135827000000, 19508128208721241296142302011174120000),
  (9996731049360889410364084922448767000000, 8388268720036192996657864697883729000)]

/-- n = 67. quadrature_lib.cpp:2247-2313. -/
def b67 : List (Nat × Nat) := [
  (3172822235116010147918412696410669000, 8141625176200064332314731109499389000),
  (16709863969431323178146281980158720000, 18935041509127542229819584452458290000),
  (41033264588451952691511127706868520000, 29703465887911176082566812492400900000),
  (76095761220244432787036000777634180000, 40408951495115681076731423462402170000),
  (121822080385459738028727941139937200000, 51027200170512204933309345023400790000),
  (178113347861436941521764250346418300000, 61535019246440752609770737754771730000),
  (244847702299273133938259305095808100000, 71909599136002754654886922116310560000),
  (321880633646245615666735476055661100000, 82128453112654396023634051382153620000),
  (409045315936307093763763554984318500000, 92169442284022869360829995152629540000),
  (506152975193398120907554965808802400000, 102010816856717702246286413103639700000),
  (612993300841706397998509093148297300000, 111631260982260384613986555756793500000),
  (729334902314746746046282991699949000000, 121009938048365823603459115195939600000),
  (854925810733494011554630258405849300000, 130126535431066194018525211430560400000),
  (989494024891527827913732177035950400000, 138961308312183849935999152675648800000),
  (1132748100500098362292255451158295000000, 147495122354728348479236321879399200000),
  (1284377781478168966520192609862651000000, 155709495097364119687130041723482800000),
  (1444054671949798360725820278661246000000, 163586635957656027135611539762952900000),
  (1611432947508595856097374214077928000000, 171109484747683233699193821308282600000),
  (1786150104216923228609329065368778000000, 178261748613725033306663113936184500000),
  (1967827743722213068998510844131279000000, 185027937317462910115675135892777100000),
  (2156072392792644893712141564150166000000, 191393396780897403238185291681156400000),
  (2350476355498819919150996121511415000000, 197344340821544413214434145450247700000),
  (2550618596196766869522035140298803000000, 202867881008722626136257784693028900000),
  (2756065651400545580024336183144409000000, 207952054575996215492741320797150700000),
  (2966372568569930420073503418823447000000, 212585850329152457357738777047804400000),
  (3181083869780229145869777664126933000000, 216759232493497586795778818612142400000),
  (3399734538187318344665624060889258000000, 220463162448755091539157904411277300000),
  (3621851025151552061422223645241337000000, 223689618304449127360708836297251200000),
  (3846952275839421310373850662901959000000, 226431612273347657840250004380831200000),
  (4074550771081799155918842762883681000000, 228683205805318454684470892846947000000),
  (4304153583232381432180546527957480000000, 230439522448807880986086946441738000000),
  (4535263443739600616841396720244116000000, 231696758412078105542235243204322900000),
  (4767379820119913902176804357680942000000, 232452190801323141041573285265639200000),
  (5000000000000000000000000000000000000000, 232704183517817541249501446517547800000),
  (5232620179880086097823195642319058000000, 232452190801323141041573285265639200000),
  (5464736556260399383158603279755884000000, 231696758412078105542235243204322900000),
  (5695846416767618567819453472042520000000, 230439522448807880986086946441738000000),
  (5925449228918200844081157237116319000000, 228683205805318454684470892846947000000),
  (6153047724160578689626149337098041000000, 226431612273347657840250004380831200000),
  (6378148974848447938577776354758663000000, 223689618304449127360708836297251200000),
  (6600265461812681655334375939110742000000, 220463162448755091539157904411277300000),
  (6818916130219770854130222335873067000000, 216759232493497586795778818612142400000),
  (7033627431430069579926496581176553000000, 212585850329152457357738777047804400000),
  (7243934348599454419975663816855591000000, 207952054575996215492741320797150700000),
  (7449381403803233130477964859701197000000, 202867881008722626136257784693028900000),
  (7649523644501180080849003878488585000000, 197344340821544413214434145450247700000),
  (7843927607207355106287858435849834000000, 191393396780897403238185291681156400000),
  (8032172256277786931001489155868721000000, 185027937317462910115675135892777100000),
  (8213849895783076771390670934631222000000, 178261748613725033306663113936184500000),
  (8388567052491404143902625785922072000000, 171109484747683233699193821308282600000),
  (8555945328050201639274179721338754000000, 163586635957656027135611539762952900000),
  (8715622218521831033479807390137349000000, 155709495097364119687130041723482800000),
  (8867251899499901637707744548841705000000, 147495122354728348479236321879399200000),
  (9010505975108472172086267822964050000000, 138961308312183849935999152675648800000),
  (9145074189266505988445369741594151000000, 130126535431066194018525211430560400000),
  (9270665097685253253953717008300051000000, 121009938048365823603459115195939600000),
  (9387006699158293602001490906851703000000, 111631260982260384613986555756793500000),
  (9493847024806601879092445034191198000000, 102010816856717702246286413103639700000),
  (9590954684063692906236236445015681000000, 92169442284022869360829995152629540000),
  (9678119366353754384333264523944339000000, 82128453112654396023634051382153620000),
  (9755152297700726866061740694904192000000, 71909599136002754654886922116310560000),
  (9821886652138563058478235749653581000000, 61535019246440752609770737754771730000),
  (9878177919614540261971272058860063000000, 51027200170512204933309345023400790000),
  (9923904238779755567212963999222366000000, 40408951495115681076731423462402170000),
  (9958966735411548047308488872293131000000, 29703465887911176082566812492400900000),
  (9983290136030568676821853718019841000000, 18935041509127542229819584452458290000),
  (9996827177764883989852081587303590000000, 8141625176200064332314731109499389000)]

/-- n = 68. quadrature_lib.cpp:2314-2381. -/
def b68 : List (Nat × Nat) := [
  (3080872351478264180329747701649895000, 7905701281864564695475293955503890000),
  (16225816616678537319132639343389290000, 18386832975058653167840410097724330000),
  (39845561287757126760773486063065290000, 28844849593649760107342357724141370000),
  (73895692798776805527523235346265810000, 39243556965885837075252304230895060000),
  (118305247998215215286942202164758100000, 49560006257929686045651891990540850000),
  (172980987089000983840225067224301100000, 59772311598847210516115286534738100000),
  (237807977601989753383205878148463400000, 69858945872288279079825128747835330000),
  (312649908435995567571897237787965800000, 79798679548069000360667021603908340000),
  (397349395760409167697238183986325600000, 89570602289615762447027323709075760000),
  (491728320399460848921453727315211300000, 99154160439777491455143352914911830000),
  (595588204912720411513679347112579000000, 108529198051890399007328404077311800000),
  (708710632086700772525188541357198000000, 117675998429381666806464910539990100000),
  (830857704791645270896444860306736600000, 126575325225881991619513553129967000000),
  (961772546551456673831868706351938100000, 135208462729519807789890591447033300000),
  (1101179841905511706275243515565000000000, 143557255137424953554019600456340000000),
  (1248786415485417401162108850906135000000, 151604144692769901707896418225824700000),
  (1404281848617635036884632779892623000000, 159332208584105324696738217103298500000),
  (1567339132169935276078219387973467000000, 166725194519903439515715639428858100000),
  (1737615354276615178997226578948363000000, 173767554898757565833965588353179300000),
  (1914752421500582886415264352936032000000, 180444479500899353574879124795125300000),
  (2098377811918246299124323806097796000000, 186741926630933338580395614468054400000),
  (2288105358544983070927547127222701000000, 192646652645533572466268164873627800000),
  (2483536061454575636824323584847663000000, 198146239803561540127032271447618000000),
  (2684258926885304804136140499848742000000, 203229122379770380704408635562731200000),
  (2889851831568432104265306040322601000000, 207884610987014582422877412596897900000),
  (3099882410461627612510179121229205000000, 212102915055712496503071155541927300000),
  (3313908966020596186362573801659708000000, 215875163423221116129217652699119200000),
  (3531481397096806300107884405960477000000, 219193422989780260053024791412417900000),
  (3752142145507916327442126194530132000000, 222050715401763779546743496791822200000),
  (3975427158290303520787351094018474000000, 224441031727133339131760655936390000000),
  (4200866863610105195023897685541833000000, 226359345092218889347058494980006400000),
  (4427987158280446577847111399165801000000, 227801621253241429903538562757226900000),
  (4656310404808114238943049735335460000000, 228764827080339752595030726738023200000),
  (4885356435872888251430018783729280000000, 229246936936254873432819945127936500000),
  (5114643564127111748569981216270720000000, 229246936936254873432819945127936500000),
  (5343689595191885761056950264664540000000, 228764827080339752595030726738023200000),
  (5572012841719553422152888600834199000000, 227801621253241429903538562757226900000),
  (5799133136389894804976102314458167000000, 226359345092218889347058494980006400000),
  (6024572841709696479212648905981525000000, 224441031727133339131760655936390000000),
  (6247857854492083672557873805469868000000, 222050715401763779546743496791822200000),
  (6468518602903193699892115594039523000000, 219193422989780260053024791412417900000),
  (6686091033979403813637426198340292000000, 215875163423221116129217652699119200000),
  (6900117589538372387489820878770795000000, 212102915055712496503071155541927300000),
  (7110148168431567895734693959677399000000, 207884610987014582422877412596897900000),
  (7315741073114695195863859500151258000000, 203229122379770380704408635562731200000),
  (7516463938545424363175676415152337000000, 198146239803561540127032271447618000000),
  (7711894641455016929072452872777299000000, 192646652645533572466268164873627800000),
  (7901622188081753700875676193902205000000, 186741926630933338580395614468054400000),
  (8085247578499417113584735647063968000000, 180444479500899353574879124795125300000),
  (8262384645723384821002773421051636000000, 173767554898757565833965588353179300000),
  (8432660867830064723921780612026532000000, 166725194519903439515715639428858100000),
  (8595718151382364963115367220107377000000, 159332208584105324696738217103298500000),
  (8751213584514582598837891149093865000000, 151604144692769901707896418225824700000),
  (8898820158094488293724756484435001000000, 143557255137424953554019600456340000000),
  (9038227453448543326168131293648062000000, 135208462729519807789890591447033300000),
  (9169142295208354729103555139693264000000, 126575325225881991619513553129967000000),
  (9291289367913299227474811458642802000000, 117675998429381666806464910539990100000),
  (9404411795087279588486320652887421000000, 108529198051890399007328404077311800000),
  (9508271679600539151078546272684789000000, 99154160439777491455143352914911830000),
  (9602650604239590832302761816013675000000, 89570602289615762447027323709075760000),
  (9687350091564004432428102762212034000000, 79798679548069000360667021603908340000),
  (9762192022398010246616794121851537000000, 69858945872288279079825128747835330000),
  (9827019012910999016159774932775699000000, 59772311598847210516115286534738100000),
  (9881694752001784784713057797835242000000, 49560006257929686045651891990540850000),
  (9926104307201223194472476764653734000000, 39243556965885837075252304230895060000),
  (9960154438712242873239226513936935000000, 28844849593649760107342357724141370000),
  (9983774183383321462680867360656611000000, 18386832975058653167840410097724330000),
  (9996919127648521735819670252298350000000, 7905701281864564695475293955503890000)]

/-- n = 69. quadrature_lib.cpp:2382-2450. -/
def b69 : List (Nat × Nat) := [
  (2992862283776058959695161769393023000, 7679884763960420375647009188708730000),
  (15762497574024497702514925231773860000, 17862083696986863048518726142506250000),
  (38708666415734406497830433902666170000, 28022899639352974142679959668452250000),
  (71789599886812033814303236894387370000, 38127779656007553057291348083054970000),
  (114938341889528683052669544892352600000, 48155030752077877943301485023544000000),
  (168066891785697165721000941646013700000, 58083983053359827743699364727258210000),
  (231066760974090512330300811844484400000, 67894303245378354999059338143902240000),
  (303809264791957635165820999217113700000, 77565932717030823698845543618352410000),
  (386145804097775014055911077301472500000, 87079106159849145660368936542756820000),
  (477908175070864299667375833817068600000, 96414385644247013946221890245511410000),
  (578908915263737816685905712180625200000, 105552698199359473139450882510410300000),
  (688941687636279580714139885855301400000, 114475373953703928277607252403395100000),
  (807781702597478933691917635074570500000, 123164183922712276821679487950704200000),
  (935186177498521930717599595120232300000, 131601377084347418958803655090096100000),
  (1070894832766201198323154754597240000000, 139769716560938529954308530523011000000),
  (1214630423720810742026384027836213000000, 147652514789533558899055305868126600000),
  (1366099307019959556714199350239874000000, 155233667589452695163428586000763600000),
  (1524992040585357695351280738567010000000, 162497687048230556223669475036015300000),
  (1690984015794608779878868841925960000000, 169429733154161447489049103762186500000),
  (1863736120650752991162712206663581000000, 176015644108417430738771817538934200000),
  (2042895432577220872153452477889875000000, 182241965253502570283217542343112100000),
  (2228095939424339927310135043909367000000, 188095976558204532540791832867776000000),
  (2418959287215331454140896397748637000000, 193565718602462569663697230746151800000),
  (2615095553104771448292795616724724000000, 198640017008808206032292734550365600000),
  (2816104041970777895650615533070391000000, 203308505270308002687630101545194600000),
  (3021574105013777763241219477028114000000, 207561645928272510414370308342060000000),
  (3231085978689668410199364532735652000000, 211390750056402564257913431288380300000),
  (3444211642263594067070473348386415000000, 214787995011526069392099511126389200000),
  (3660515692232482857092007016872785000000, 217746440414633705167878885310343900000),
  (3879556231830004933592679424582923000000, 220260042329546421904929586610033200000),
  (4100885773796784178201433909468800000000, 222323665610235690481155486709593700000),
  (4324052154571585039207641980150414000000, 223933094391562787710676391124030300000),
  (4548599458035856287189401664679959000000, 225085040701999010993580963580219000000),
  (4774068946924491382341837982709433000000, 225777151180727302582585266099820200000),
  (5000000000000000000000000000000000000000, 226008011885399771211446059377681400000),
  (5225931053075508617658162017290567000000, 225777151180727302582585266099820200000),
  (5451400541964143712810598335320041000000, 225085040701999010993580963580219000000),
  (5675947845428414960792358019849585000000, 223933094391562787710676391124030300000),
  (5899114226203215821798566090531199000000, 222323665610235690481155486709593700000),
  (6120443768169995066407320575417077000000, 220260042329546421904929586610033200000),
  (6339484307767517142907992983127214000000, 217746440414633705167878885310343900000),
  (6555788357736405932929526651613585000000, 214787995011526069392099511126389200000),
  (6768914021310331589800635467264348000000, 211390750056402564257913431288380300000),
  (6978425894986222236758780522971886000000, 207561645928272510414370308342060000000),
  (7183895958029222104349384466929609000000, 203308505270308002687630101545194600000),
  (7384904446895228551707204383275275000000, 198640017008808206032292734550365600000),
  (7581040712784668545859103602251363000000, 193565718602462569663697230746151800000),
  (7771904060575660072689864956090633000000, 188095976558204532540791832867776000000),
  (7957104567422779127846547522110125000000, 182241965253502570283217542343112100000),
  (8136263879349247008837287793336420000000, 176015644108417430738771817538934200000),
  (8309015984205391220121131158074039000000, 169429733154161447489049103762186500000),
  (8475007959414642304648719261432990000000, 162497687048230556223669475036015300000),
  (8633900692980040443285800649760126000000, 155233667589452695163428586000763600000),
  (8785369576279189257973615972163787000000, 147652514789533558899055305868126600000),
  (8929105167233798801676845245402760000000, 139769716560938529954308530523011000000),
  (9064813822501478069282400404879767000000, 131601377084347418958803655090096100000),
  (9192218297402521066308082364925430000000, 123164183922712276821679487950704200000),
  (9311058312363720419285860114144699000000, 114475373953703928277607252403395100000),
  (9421091084736262183314094287819375000000, 105552698199359473139450882510410300000),
  (9522091824929135700332624166182931000000, 96414385644247013946221890245511410000),
  (9613854195902224985944088922698528000000, 87079106159849145660368936542756820000),
  (9696190735208042364834179000782886000000, 77565932717030823698845543618352410000),
  (9768933239025909487669699188155515000000, 67894303245378354999059338143902240000),
  (9831933108214302834278999058353986000000, 58083983053359827743699364727258210000),
  (9885061658110471316947330455107647000000, 48155030752077877943301485023544000000),
  (9928210400113187966185696763105613000000, 38127779656007553057291348083054970000),
  (9961291333584265593502169566097334000000, 28022899639352974142679959668452250000),
  (9984237502425975502297485074768227000000, 17862083696986863048518726142506250000),
  (9997007137716223941040304838230606000000, 7679884763960420375647009188708730000)]

/-- n = 70. quadrature_lib.cpp:2451-2520. -/
def b70 : List (Nat × Nat) := [
  (2908570132120789716287090573952907000, 7463606444222578655196780285689356000),
  (15318740191599216950932520829222330000, 17359474465390716274995962405231240000),
  (37619723941550094505289571203049650000, 27235559371086091564104828119484360000),
  (69772209648006700364493303413325620000, 37058846815951051810554636616015430000),
  (111712970212037998030461859318836300000, 46808813848495134057497571178930700000),
  (163358881675067808056908821379556300000, 56465923249657688248154984885724670000),
  (224607454428535786798363226857402900000, 66010954073383738125367454432421050000),
  (295337104980923222385922921290064400000, 75424939327215638411475936071982240000),
  (375407415510327798638670174075563900000, 84689181881514662659184270873436740000),
  (464659418695385752818236378530290800000, 93785285465667117077255651609349700000),
  (562915915683259144378132550029562600000, 102695189121632266922462901663365500000),
  (669981828930706853099827402896986100000, 111401202261282979169454208097721600000),
  (785644590005098788407032349012829800000, 119886039445501461393433470767666400000),
  (909674561872794054863840064466565700000, 128132854542342413994924161496922700000),
  (1041825494960536209461619127575929000000, 136125274093322085795536050812165400000),
  (1181835016140502155374524717516333000000, 143847429779041403306551918901025500000),
  (1329425149695286793461741605309007000000, 151283989900771189082683717862163100000),
  (1484302869242357014685263198887771000000, 158420189806542408673264280112338200000),
  (1646160679529612971768594024942895000000, 165241861196862102354371426989569500000),
  (1814677226951109518605701776564850000000, 171735460249532687842726646742674300000),
  (1989517937573222563316167088982812000000, 177888094506461902663848569763074800000),
  (2170335681405958568135203212649941000000, 183687548468363476740201379473648000000),
  (2356771461601444363674596216695909000000, 189122307846114085986360695995075800000),
  (2548455127211817053651109293235948000000, 194181582420367019895015217984424600000),
  (2745006108091760671341801480594411000000, 198855327463882837389247729965628500000),
  (2946034170486847053143686160328185000000, 203134263683948081756129554282693600000),
  (3151140191807690520802976526835410000000, 207009895645226043191132519898606200000),
  (3359916953051783710769342727564725000000, 210474528636422030104919440913369800000),
  (3571949947299810691541676095698057000000, 213521283947248888849828551221694200000),
  (3786818202681296771082104868081048000000, 216144112525343498946976193872392200000),
  (4004095118175711679242982691899699000000, 218337806986007201262742144459908400000),
  (4223349310589648763454972542486830000000, 220098011950917293786778901755574400000),
  (4444145471028506531321238347248596000000, 221421232695277033878998371959773200000),
  (4666045229162243379981402817802012000000, 222304842086231854117786383129477500000),
  (4888608023569298451532536087555949000000, 222747085798773336010837485400781700000),
  (5111391976430701548467463912444051000000, 222747085798773336010837485400781700000),
  (5333954770837756620018597182197987000000, 222304842086231854117786383129477500000),
  (5555854528971493468678761652751404000000, 221421232695277033878998371959773200000),
  (5776650689410351236545027457513170000000, 220098011950917293786778901755574400000),
  (5995904881824288320757017308100301000000, 218337806986007201262742144459908400000),
  (6213181797318703228917895131918952000000, 216144112525343498946976193872392200000),
  (6428050052700189308458323904301943000000, 213521283947248888849828551221694200000),
  (6640083046948216289230657272435275000000, 210474528636422030104919440913369800000),
  (6848859808192309479197023473164590000000, 207009895645226043191132519898606200000),
  (7053965829513152946856313839671815000000, 203134263683948081756129554282693600000),
  (7254993891908239328658198519405589000000, 198855327463882837389247729965628500000),
  (7451544872788182946348890706764051000000, 194181582420367019895015217984424600000),
  (7643228538398555636325403783304091000000, 189122307846114085986360695995075800000),
  (7829664318594041431864796787350059000000, 183687548468363476740201379473648000000),
  (8010482062426777436683832911017187000000, 177888094506461902663848569763074800000),
  (8185322773048890481394298223435150000000, 171735460249532687842726646742674300000),
  (8353839320470387028231405975057106000000, 165241861196862102354371426989569500000),
  (8515697130757642985314736801112229000000, 158420189806542408673264280112338200000),
  (8670574850304713206538258394690993000000, 151283989900771189082683717862163100000),
  (8818164983859497844625475282483667000000, 143847429779041403306551918901025500000),
  (8958174505039463790538380872424071000000, 136125274093322085795536050812165400000),
  (9090325438127205945136159935533435000000, 128132854542342413994924161496922700000),
  (9214355409994901211592967650987170000000, 119886039445501461393433470767666400000),
  (9330018171069293146900172597103014000000, 111401202261282979169454208097721600000),
  (9437084084316740855621867449970437000000, 102695189121632266922462901663365500000),
  (9535340581304614247181763621469709000000, 93785285465667117077255651609349700000),
  (9624592584489672201361329825924436000000, 84689181881514662659184270873436740000),
  (9704662895019076777614077078709936000000, 75424939327215638411475936071982240000),
  (9775392545571464213201636773142597000000, 66010954073383738125367454432421050000),
  (9836641118324932191943091178620444000000, 56465923249657688248154984885724670000),
  (9888287029787962001969538140681164000000, 46808813848495134057497571178930700000),
  (9930227790351993299635506696586675000000, 37058846815951051810554636616015430000),
  (9962380276058449905494710428796950000000, 27235559371086091564104828119484360000),
  (9984681259808400783049067479170778000000, 17359474465390716274995962405231240000),
  (9997091429867879210283712909426047000000, 7463606444222578655196780285689356000)]

/-- Blocks 51..70. -/
def blocks1 : List (List (Nat × Nat)) := [b51, b52, b53, b54, b55, b56, b57, b58, b59, b60, b61, b62, b63, b64, b65, b66, b67, b68, b69, b70]

end Qugar.GaussTable
