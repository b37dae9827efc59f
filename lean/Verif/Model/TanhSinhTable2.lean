/-
GENERATED (see DESIGN.md) from cpp/qugar/quadrature_lib.cpp: rows of `TanhSinh::get_quad_data` for n = 71..86 points.
Every decimal literal of the source is written as an integer multiple of 10^(-66) (exactly, no rounding); the
rounding of the literals to `double` is not modelled.
-/
namespace Qugar.TanhSinhTable

/-- n = 71. quadrature_lib.cpp:7582-7652. -/
def b71 : List (Nat × Nat) := [
  (1820613695470678282927740188158392000000000, 10112040399443683100971813831723150000000000),
  (358313944948745717962795113455535300000000000, 1798498149182107211663924715003092000000000000),
  (42407120925219013676776538653289700000000000000, 192366057491473710722434889208931400000000000000),
  (3170259297815798326782788494636564000000000000000, 12997204256054187105904518752914960000000000000000),
  (156505133132858525717921876392522400000000000000000, 579931026994866014302100976796489000000000000000000),
  (5311056987458843931110906829682987000000000000000000, 17789120881064342530473184410531810000000000000000000),
  (128474277451467707292102098594969700000000000000000000, 389005792888318660862770422333581600000000000000000000),
  (2289203438331174865264197293166273000000000000000000000, 6266720237726442386081361559215059000000000000000000000),
  (30950547752434950060612909371410400000000000000000000000, 76612751249510870128217137647254770000000000000000000000),
  (326149036448130013252123457150528200000000000000000000000, 730129579213017897703197537299294000000000000000000000000),
  (2744485911865308167752400852596624000000000000000000000000, 5557594293963638749230108431056004000000000000000000000000),
  (18850815423806150320241056894187810000000000000000000000000, 34538940373466382551697824469640570000000000000000000000000),
  (107805878196823833978732883958938700000000000000000000000000, 178776304657603324861936151359650800000000000000000000000000),
  (522633687367514521755455599716323000000000000000000000000000, 784727725754087051349409805714608100000000000000000000000000),
  (2183007288038861224640459020326391000000000000000000000000000, 2969151048037716116902433936419937000000000000000000000000000),
  (7972762067508372773429702613682901000000000000000000000000000, 9828466082232424001833657115567946000000000000000000000000000),
  (25801717442730545490146562617482600000000000000000000000000000, 28848267691690010982670746375958460000000000000000000000000000),
  (74889215306669981432372243758834220000000000000000000000000000, 76003774304368138734642814453796200000000000000000000000000000),
  (197091972483373761301777371370118300000000000000000000000000000, 181735467329238859093678466008028700000000000000000000000000000),
  (474996500060546408104273988500296800000000000000000000000000000, 398367131510964783216572140236891300000000000000000000000000000),
  (1057680606043134031703819938184248000000000000000000000000000000, 807762792528773143880829804139010900000000000000000000000000000),
  (2193492928492934037647442741454130000000000000000000000000000000, 1527353002095835985348221159909068000000000000000000000000000000),
  (4267117193584458103775813868159109000000000000000000000000000000, 2712291972978543298996827548393500000000000000000000000000000000),
  (7835898403587849349228054477868005000000000000000000000000000000, 4551449238499475679298946257615504000000000000000000000000000000),
  (13658172514028156113713396823281450000000000000000000000000000000, 7255086907678573008523987372244493000000000000000000000000000000),
  (22704335128115041785552641844496220000000000000000000000000000000, 11032399103500871335093841392811940000000000000000000000000000000),
  (36139879266948598107460272957566130000000000000000000000000000000, 16057832114686482849374762830523540000000000000000000000000000000),
  (55269286121131865614928838013086490000000000000000000000000000000, 22426782169768900358804257292742670000000000000000000000000000000),
  (81431697055400293556664452084272220000000000000000000000000000000, 30104444906549749750489361700380250000000000000000000000000000000),
  (115845347412415105614062391817824800000000000000000000000000000000, 38876376529737508228399381751968970000000000000000000000000000000),
  (159409040020304896949328174379582500000000000000000000000000000000, 48314748074683458148581399228969770000000000000000000000000000000),
  (212485001202309714615486282869697900000000000000000000000000000000, 57777850700674397196755789589630990000000000000000000000000000000),
  (274704693580668067726752858953534600000000000000000000000000000000, 66458544083697781209281980344387970000000000000000000000000000000),
  (344850473736464116043536082575893900000000000000000000000000000000, 73487075509580201753631106885634380000000000000000000000000000000),
  (420862830672639046121062761134425000000000000000000000000000000000, 78075551850226381838894892606567940000000000000000000000000000000),
  (500000000000000000000000000000000000000000000000000000000000000000, 79671388742330032851340179759834810000000000000000000000000000000),
  (579137169327360953878937238865575000000000000000000000000000000000, 78075551850226381838894892606567940000000000000000000000000000000),
  (655149526263535883956463917424106200000000000000000000000000000000, 73487075509580201753631106885634380000000000000000000000000000000),
  (725295306419331932273247141046465400000000000000000000000000000000, 66458544083697781209281980344387970000000000000000000000000000000),
  (787514998797690285384513717130302000000000000000000000000000000000, 57777850700674397196755789589631000000000000000000000000000000000),
  (840590959979695103050671825620417500000000000000000000000000000000, 48314748074683458148581399228969770000000000000000000000000000000),
  (884154652587584894385937608182175200000000000000000000000000000000, 38876376529737508228399381751968970000000000000000000000000000000),
  (918568302944599706443335547915727800000000000000000000000000000000, 30104444906549749750489361700380250000000000000000000000000000000),
  (944730713878868134385071161986913500000000000000000000000000000000, 22426782169768900358804257292742670000000000000000000000000000000),
  (963860120733051401892539727042434000000000000000000000000000000000, 16057832114686482849374762830523540000000000000000000000000000000),
  (977295664871884958214447358155503700000000000000000000000000000000, 11032399103500871335093841392811940000000000000000000000000000000),
  (986341827485971843886286603176718500000000000000000000000000000000, 7255086907678573008523987372244493000000000000000000000000000000),
  (992164101596412150650771945522132100000000000000000000000000000000, 4551449238499475679298946257615504000000000000000000000000000000),
  (995732882806415541896224186131840900000000000000000000000000000000, 2712291972978543298996827548393500000000000000000000000000000000),
  (997806507071507065962352557258545900000000000000000000000000000000, 1527353002095835985348221159909068000000000000000000000000000000),
  (998942319393956865968296180061815800000000000000000000000000000000, 807762792528773143880829804139010900000000000000000000000000000),
  (999525003499939453591895726011499600000000000000000000000000000000, 398367131510964783216572140236891300000000000000000000000000000),
  (999802908027516626238698222628629800000000000000000000000000000000, 181735467329238859093678466008028700000000000000000000000000000),
  (999925110784693330018567627756241200000000000000000000000000000000, 76003774304368138734642814453796220000000000000000000000000000),
  (999974198282557269454509853437382500000000000000000000000000000000, 28848267691690010982670746375958450000000000000000000000000000),
  (999992027237932491627226570297386200000000000000000000000000000000, 9828466082232424001833657115567932000000000000000000000000000),
  (999997816992711961138775359540979800000000000000000000000000000000, 2969151048037716116902433936419937000000000000000000000000000),
  (999999477366312632485478244544400300000000000000000000000000000000, 784727725754087051349409805714608100000000000000000000000000),
  (999999892194121803176166021267116000000000000000000000000000000000, 178776304657603324861936151359650800000000000000000000000000),
  (999999981149184576193849679758943100000000000000000000000000000000, 34538940373466382551697824469640570000000000000000000000000),
  (999999997255514088134691832247599100000000000000000000000000000000, 5557594293963638749230108431056004000000000000000000000000),
  (999999999673850963551869986747876600000000000000000000000000000000, 730129579213017897703197537299294000000000000000000000000),
  (999999999969049452247565049939387200000000000000000000000000000000, 76612751249510870128217137647254780000000000000000000000),
  (999999999997710796561668825134735900000000000000000000000000000000, 6266720237726442386081361559215059000000000000000000000),
  (999999999999871525722548532292708000000000000000000000000000000000, 389005792888318660862770422333581600000000000000000000),
  (999999999999994688943012541156069000000000000000000000000000000000, 17789120881064342530473184410531810000000000000000000),
  (999999999999999843494866867141474300000000000000000000000000000000, 579931026994866014302100976796489000000000000000000),
  (999999999999999996829740702184201700000000000000000000000000000000, 12997204256054187105904518752914960000000000000000),
  (999999999999999999957592879074781000000000000000000000000000000000, 192366057491473710722434889208931400000000000000),
  (999999999999999999999641686055051200000000000000000000000000000000, 1798498149182107211663924715003092000000000000),
  (999999999999999999999998179386304500000000000000000000000000000000, 10112040399443683100971813831723150000000000)]

/-- n = 72. quadrature_lib.cpp:7653-7724. -/
def b72 : List (Nat × Nat) := [
  (958160672934193071280723440595160100000000, 5325693907997458228942730229417601000000000),
  (189842724693905363310009479598061700000000000, 954623723932093026895452155990610000000000000),
  (22723166967977737890120821376020940000000000000, 103377201059030458012642154066553900000000000000),
  (1724261175434212255755395579401691000000000000000, 7097373611570213365452571262569072000000000000000),
  (86644690662490390773380183937435690000000000000000, 322701520580926879022353590514510200000000000000000),
  (2999351297911149321743309225789199000000000000000000, 10108396236010961430000494202394130000000000000000000),
  (74125904731656136408519767662104270000000000000000000, 226078454575574783291117902912797800000000000000000000),
  (1350846951679455864528185437122764000000000000000000000, 3728862992492614279822132092328147000000000000000000000),
  (18691266368813990603729546344936800000000000000000000000, 46703274080294834486136664851681890000000000000000000000),
  (201634812441761542211178967212293100000000000000000000000, 456123301619947370019413757704639600000000000000000000000),
  (1736980490751531790077609237762545000000000000000000000000, 3557992370743598672504837862736956000000000000000000000000),
  (12210992508431105060602546621677340000000000000000000000000, 22654696608736204128941011384424670000000000000000000000000),
  (71444374517889640325794736624523180000000000000000000000000, 120087873699386535119728051795786800000000000000000000000000),
  (354141687975624061836750369435827800000000000000000000000000, 539493456860677168447785072909439500000000000000000000000000),
  (1511412797067298286213076383306425000000000000000000000000000, 2087649911643505665838701046332609000000000000000000000000000),
  (5635541053850844531917852279857592000000000000000000000000000, 7061594850195625751302971627656731000000000000000000000000000),
  (18603361008293834646861720112441700000000000000000000000000000, 21160451018020377917322233537239520000000000000000000000000000),
  (55026323778108161791895918639372120000000000000000000000000000, 56858704619840455105795344582029790000000000000000000000000000),
  (147436423333302194642881055750498800000000000000000000000000000, 138518557366819099412874045468805500000000000000000000000000000),
  (361392669048880961860070351407441700000000000000000000000000000, 309029463662891147809515193888355800000000000000000000000000000),
  (817647589736526325536432287877579200000000000000000000000000000, 637080247383597905097437000190351400000000000000000000000000000),
  (1721277697394506425636005574080807000000000000000000000000000000, 1223511385898358614299602326039440000000000000000000000000000000),
  (3395890963304535232847081729857610000000000000000000000000000000, 2204767127029366256337823507357178000000000000000000000000000000),
  (6318954272461054298405082394948298000000000000000000000000000000, 3751332955663190828237075811591715000000000000000000000000000000),
  (11152197346075476019076667873427050000000000000000000000000000000, 6059126992439916116809135606134181000000000000000000000000000000),
  (18759119667874804631363207195387000000000000000000000000000000000, 9332042964742360929619188825804495000000000000000000000000000000),
  (30200037026729349126067060683693670000000000000000000000000000000, 13754335744157043667760816881034200000000000000000000000000000000),
  (46694291010188944366288509910816030000000000000000000000000000000, 19452683924419279759619080141947280000000000000000000000000000000),
  (69540121870892529345905341347535590000000000000000000000000000000, 26450085688803221422505581093086710000000000000000000000000000000),
  (99986646996179345942918021541344100000000000000000000000000000000, 34617560568963058397423621214758850000000000000000000000000000000),
  (139060762085273033915212959785176300000000000000000000000000000000, 43634517631768810136522971431808080000000000000000000000000000000),
  (187364948923349416298322435569855100000000000000000000000000000000, 52972954262080887548722870126936470000000000000000000000000000000),
  (244877975301921589262915208161623300000000000000000000000000000000, 61921460105984687334969663512545230000000000000000000000000000000),
  (310804183754334173078823112928512100000000000000000000000000000000, 69659165244783891230298753512285420000000000000000000000000000000),
  (383520964511226183789131781104228900000000000000000000000000000000, 75376083650893773465410700708718410000000000000000000000000000000),
  (460661377681086143845389197933010500000000000000000000000000000000, 78417888782747651184418913346581180000000000000000000000000000000),
  (539338622318913856154610802066989500000000000000000000000000000000, 78417888782747651184418913346581180000000000000000000000000000000),
  (616479035488773816210868218895771000000000000000000000000000000000, 75376083650893773465410700708718410000000000000000000000000000000),
  (689195816245665826921176887071487900000000000000000000000000000000, 69659165244783891230298753512285420000000000000000000000000000000),
  (755122024698078410737084791838376600000000000000000000000000000000, 61921460105984687334969663512545230000000000000000000000000000000),
  (812635051076650583701677564430144900000000000000000000000000000000, 52972954262080887548722870126936450000000000000000000000000000000),
  (860939237914726966084787040214823700000000000000000000000000000000, 43634517631768810136522971431808080000000000000000000000000000000),
  (900013353003820654057081978458655900000000000000000000000000000000, 34617560568963058397423621214758850000000000000000000000000000000),
  (930459878129107470654094658652464400000000000000000000000000000000, 26450085688803221422505581093086710000000000000000000000000000000),
  (953305708989811055633711490089184000000000000000000000000000000000, 19452683924419279759619080141947280000000000000000000000000000000),
  (969799962973270650873932939316306300000000000000000000000000000000, 13754335744157043667760816881034200000000000000000000000000000000),
  (981240880332125195368636792804613000000000000000000000000000000000, 9332042964742360929619188825804495000000000000000000000000000000),
  (988847802653924523980923332126572900000000000000000000000000000000, 6059126992439916116809135606134180000000000000000000000000000000),
  (993681045727538945701594917605051700000000000000000000000000000000, 3751332955663190828237075811591715000000000000000000000000000000),
  (996604109036695464767152918270142400000000000000000000000000000000, 2204767127029366256337823507357178000000000000000000000000000000),
  (998278722302605493574363994425919200000000000000000000000000000000, 1223511385898358614299602326039440000000000000000000000000000000),
  (999182352410263473674463567712122500000000000000000000000000000000, 637080247383597905097437000190351400000000000000000000000000000),
  (999638607330951119038139929648592500000000000000000000000000000000, 309029463662891147809515193888355800000000000000000000000000000),
  (999852563576666697805357118944249500000000000000000000000000000000, 138518557366819099412874045468805500000000000000000000000000000),
  (999944973676221891838208104081360600000000000000000000000000000000, 56858704619840455105795344582029790000000000000000000000000000),
  (999981396638991706165353138279887500000000000000000000000000000000, 21160451018020377917322233537239520000000000000000000000000000),
  (999994364458946149155468082147720100000000000000000000000000000000, 7061594850195625751302971627656731000000000000000000000000000),
  (999998488587202932701713786923616700000000000000000000000000000000, 2087649911643505665838701046332609000000000000000000000000000),
  (999999645858312024375938163249630600000000000000000000000000000000, 539493456860677168447785072909439500000000000000000000000000),
  (999999928555625482110359674205263400000000000000000000000000000000, 120087873699386535119728051795786700000000000000000000000000),
  (999999987789007491568894939397453400000000000000000000000000000000, 22654696608736204128941011384424670000000000000000000000000),
  (999999998263019509248468209922390800000000000000000000000000000000, 3557992370743598672504837862736945000000000000000000000000),
  (999999999798365187558238457788821200000000000000000000000000000000, 456123301619947370019413757704639600000000000000000000000),
  (999999999981308733631186009396270600000000000000000000000000000000, 46703274080294834486136664851681890000000000000000000000),
  (999999999998649153048320544135471900000000000000000000000000000000, 3728862992492614279822132092328147000000000000000000000),
  (999999999999925874095268343863591500000000000000000000000000000000, 226078454575574783291117902912797800000000000000000000),
  (999999999999997000648702088850678200000000000000000000000000000000, 10108396236010961430000494202394130000000000000000000),
  (999999999999999913355309337509609200000000000000000000000000000000, 322701520580926879022353590514510200000000000000000),
  (999999999999999998275738824565787700000000000000000000000000000000, 7097373611570213365452571262569072000000000000000),
  (999999999999999999977276833032022300000000000000000000000000000000, 103377201059030458012642154066554500000000000000),
  (999999999999999999999810157275306100000000000000000000000000000000, 954623723932093026895452155990615700000000000),
  (999999999999999999999999041839327100000000000000000000000000000000, 5325693907997458228942730229417601000000000)]

/-- n = 73. quadrature_lib.cpp:7725-7797. -/
def b73 : List (Nat × Nat) := [
  (505029723055608702410683267738369000000000, 2809078825547792058042580437819921000000000),
  (100720067148900866564619964402600000000000000, 507372951418845443978526910310886200000000000),
  (12189485150008090574282378087194600000000000000, 55613142744523186712827624185506670000000000000),
  (938568398477670540341044501938547400000000000000, 3878455686075045211860294256623870000000000000000),
  (47991228503890770137843935120539590000000000000000, 179630490742422835608132041131030500000000000000000),
  (1694041577933685842342841262475985000000000000000000, 5743773956894063530039303400529006000000000000000000),
  (42757893544406608625125941121512990000000000000000000, 131335152454511295194617124531748800000000000000000000),
  (796646740109394138425772008990181800000000000000000000, 2217002205366131697198123991373886000000000000000000000),
  (11277153845390589035677310186498550000000000000000000000, 28437369423775625549783291379870790000000000000000000000),
  (124499552223694585554264017520077600000000000000000000000, 284520089570776660985665823400371300000000000000000000000),
  (1097630636211119061485526487188927000000000000000000000000, 2273717702913090304195829920483802000000000000000000000000),
  (7895635244595718445015873418891309000000000000000000000000, 14828590461042212065525558124318170000000000000000000000000),
  (47251028013485179371785341805719530000000000000000000000000, 80477574478393764569668598625879680000000000000000000000000),
  (239437191056221061750291215479170200000000000000000000000000, 369955850892926753473216984818562300000000000000000000000000),
  (1043946758165647255671744266975091000000000000000000000000000, 1463881480526397864259487841422435000000000000000000000000000),
  (3973537774235735356322743232012846000000000000000000000000000, 5059243301154106963173404801822098000000000000000000000000000),
  (13378625817935362129731905482662710000000000000000000000000000, 15475869511581885384850535077567790000000000000000000000000000),
  (40325110496979881372331259515511810000000000000000000000000000, 42409071363866372867007561664325990000000000000000000000000000),
  (109997834895995983594899444873487000000000000000000000000000000, 105260578297885310697143222682356900000000000000000000000000000),
  (274228679344887891332204200483543800000000000000000000000000000, 239005267074608450715950066986500200000000000000000000000000000),
  (630423802248989142322025699048184100000000000000000000000000000, 500963183003342780032355099911087600000000000000000000000000000),
  (1347214301374785063149845644876790000000000000000000000000000000, 977218259328270099334001182418799300000000000000000000000000000),
  (2695642623285348913697914513279992000000000000000000000000000000, 1786958368181941511731871489754016000000000000000000000000000000),
  (5082847924537779705005351550122367000000000000000000000000000000, 3082808250618897571008580262984837000000000000000000000000000000),
  (9083281593690180564670042578549677000000000000000000000000000000, 5045249245441452222912509838151953000000000000000000000000000000),
  (15460649233813223817456929086465990000000000000000000000000000000, 7869382022086852704734794696369104000000000000000000000000000000),
  (25172177235547459584568817789643400000000000000000000000000000000, 11742622664878731633860882985706930000000000000000000000000000000),
  (39345723241976408425477573277362840000000000000000000000000000000, 16812690644667869087211268944962310000000000000000000000000000000),
  (59220341196613154118376644765688660000000000000000000000000000000, 23146901024684153534113853556958080000000000000000000000000000000),
  (86043279686607429752530400596779980000000000000000000000000000000, 30686716103880021412681502418880410000000000000000000000000000000),
  (120922354912496943384289895095236200000000000000000000000000000000, 39205683102643676361643983660668940000000000000000000000000000000),
  (164643020000806316770713082089760300000000000000000000000000000000, 48283283005752488634446118553262480000000000000000000000000000000),
  (217473479153867112824265677316949300000000000000000000000000000000, 57309656287796215447559085356464870000000000000000000000000000000),
  (278995470519420043913175384054061800000000000000000000000000000000, 65533746964105657410670211217755270000000000000000000000000000000),
  (348006789265057171082332586358563000000000000000000000000000000000, 72158005145226937516785909942555620000000000000000000000000000000),
  (422537372058111824328689152051819700000000000000000000000000000000, 76467296096636120239138991550718320000000000000000000000000000000),
  (500000000000000000000000000000000000000000000000000000000000000000, 77963355737984980680843410984862040000000000000000000000000000000),
  (577462627941888175671310847948180300000000000000000000000000000000, 76467296096636120239138991550718320000000000000000000000000000000),
  (651993210734942828917667413641437000000000000000000000000000000000, 72158005145226937516785909942555620000000000000000000000000000000),
  (721004529480579956086824615945938100000000000000000000000000000000, 65533746964105657410670211217755240000000000000000000000000000000),
  (782526520846132887175734322683050700000000000000000000000000000000, 57309656287796215447559085356464870000000000000000000000000000000),
  (835356979999193683229286917910239700000000000000000000000000000000, 48283283005752488634446118553262470000000000000000000000000000000),
  (879077645087503056615710104904763800000000000000000000000000000000, 39205683102643676361643983660668920000000000000000000000000000000),
  (913956720313392570247469599403220100000000000000000000000000000000, 30686716103880021412681502418880400000000000000000000000000000000),
  (940779658803386845881623355234311400000000000000000000000000000000, 23146901024684153534113853556958080000000000000000000000000000000),
  (960654276758023591574522426722637100000000000000000000000000000000, 16812690644667869087211268944962310000000000000000000000000000000),
  (974827822764452540415431182210356600000000000000000000000000000000, 11742622664878731633860882985706930000000000000000000000000000000),
  (984539350766186776182543070913534000000000000000000000000000000000, 7869382022086852704734794696369106000000000000000000000000000000),
  (990916718406309819435329957421450400000000000000000000000000000000, 5045249245441452222912509838151953000000000000000000000000000000),
  (994917152075462220294994648449877700000000000000000000000000000000, 3082808250618897571008580262984837000000000000000000000000000000),
  (997304357376714651086302085486720000000000000000000000000000000000, 1786958368181941511731871489754016000000000000000000000000000000),
  (998652785698625214936850154355123200000000000000000000000000000000, 977218259328270099334001182418799300000000000000000000000000000),
  (999369576197751010857677974300951800000000000000000000000000000000, 500963183003342780032355099911087600000000000000000000000000000),
  (999725771320655112108667795799516400000000000000000000000000000000, 239005267074608450715950066986500200000000000000000000000000000),
  (999890002165104004016405100555126400000000000000000000000000000000, 105260578297885310697143222682357100000000000000000000000000000),
  (999959674889503020118627668740484500000000000000000000000000000000, 42409071363866372867007561664326060000000000000000000000000000),
  (999986621374182064637870268094517400000000000000000000000000000000, 15475869511581885384850535077567770000000000000000000000000000),
  (999996026462225764264643677256768000000000000000000000000000000000, 5059243301154106963173404801822099000000000000000000000000000),
  (999998956053241834352744328255733100000000000000000000000000000000, 1463881480526397864259487841422435000000000000000000000000000),
  (999999760562808943778938249708784500000000000000000000000000000000, 369955850892926753473216984818562200000000000000000000000000),
  (999999952748971986514820628214658300000000000000000000000000000000, 80477574478393764569668598625879680000000000000000000000000),
  (999999992104364755404281554984126500000000000000000000000000000000, 14828590461042212065525558124318170000000000000000000000000),
  (999999998902369363788880938514473600000000000000000000000000000000, 2273717702913090304195829920483802000000000000000000000000),
  (999999999875500447776305414445736100000000000000000000000000000000, 284520089570776660985665823400371300000000000000000000000),
  (999999999988722846154609410964322700000000000000000000000000000000, 28437369423775625549783291379870790000000000000000000000),
  (999999999999203353259890605861574200000000000000000000000000000000, 2217002205366131697198123991373886000000000000000000000),
  (999999999999957242106455593391374800000000000000000000000000000000, 131335152454511295194617124531748800000000000000000000),
  (999999999999998305958422066314157600000000000000000000000000000000, 5743773956894063530039303400529006000000000000000000),
  (999999999999999952008771496109230000000000000000000000000000000000, 179630490742422835608132041131031600000000000000000),
  (999999999999999999061431601522329500000000000000000000000000000000, 3878455686075045211860294256623870000000000000000),
  (999999999999999999987810514849991900000000000000000000000000000000, 55613142744523186712827624185506670000000000000),
  (999999999999999999999899279932851000000000000000000000000000000000, 507372951418845443978526910310886200000000000),
  (999999999999999999999999494970277000000000000000000000000000000000, 2809078825547792058042580437819921000000000)]

/-- n = 74. quadrature_lib.cpp:7798-7871. -/
def b74 : List (Nat × Nat) := [
  (266588847496291613803637155970986800000000, 1483852173187747280328629811661247000000000),
  (53508225844971412886898140921125810000000000, 270014227329227691966842658968232600000000000),
  (6546097673818214284193572151140084000000000000, 29948958809643231281638633194446950000000000000),
  (511306987576720494038946806562635900000000000000, 2120963734922078413603206990993759000000000000000),
  (26594448563350452144118520630433850000000000000000, 100027180357729645379613612087819100000000000000000),
  (956925461853552748245084677346952300000000000000000, 3263690404953225766092629707599430000000000000000000),
  (24658464631774946092548443955378680000000000000000000, 76266722250504860231455516844828800000000000000000000),
  (469545656851763948366293909002542200000000000000000000, 1317124754202045652714516942337996000000000000000000000),
  (6797797581879682411048373268009357000000000000000000000, 17296100401097918354700577411543510000000000000000000000),
  (76779078220952932192397520373006680000000000000000000000, 177221151611503443736999054132086300000000000000000000000),
  (692574660941970805102354157306167800000000000000000000000, 1450464319399300696435424471806288000000000000000000000000),
  (5096374825289640833542887494283867000000000000000000000000, 9686364882238795397241894446860538000000000000000000000000),
  (31188571169582597133514706097649780000000000000000000000000, 53810211677244047157311277906022440000000000000000000000000),
  (161534125984737082006652546527480900000000000000000000000000, 253068229467233097352592807916783800000000000000000000000000),
  (719388370807098308076523035087405500000000000000000000000000, 1023773042903296938562818834654671000000000000000000000000000),
  (2794828275164108074107906691202480000000000000000000000000000, 3614591455246021923515344391541586000000000000000000000000000),
  (9596839138856063184733855106035768000000000000000000000000000, 11285822799466853273420158988932040000000000000000000000000000),
  (29474849308059684494329542576557650000000000000000000000000000, 31538504103342870544295851629470780000000000000000000000000000),
  (81850564599640343260201639890520720000000000000000000000000000, 79750035384355136886013846056434170000000000000000000000000000),
  (207540721630450860823651422958277500000000000000000000000000000, 184298424650041327645073766558419600000000000000000000000000000),
  (484801733178603518204398616072690500000000000000000000000000000, 392764869938445001392960092049950000000000000000000000000000000),
  (1051725765635704898347797331461178000000000000000000000000000000, 778222625195478887661039717756551600000000000000000000000000000),
  (2134367878407354890423640103492001000000000000000000000000000000, 1444134482774206796274117937138266000000000000000000000000000000),
  (4078354638664913710868176497229778000000000000000000000000000000, 2526119481702558412343129018075338000000000000000000000000000000),
  (7379951194178915428873099010633442000000000000000000000000000000, 4188813052865613845262966065023439000000000000000000000000000000),
  (12710833863188698377654128653269100000000000000000000000000000000, 6616154955971049631053694042957098000000000000000000000000000000),
  (20929252691919540825593869877823840000000000000000000000000000000, 9993672297929908591459130283408068000000000000000000000000000000),
  (33069056720880441562182278390612410000000000000000000000000000000, 14481838506201788727295235128177070000000000000000000000000000000),
  (50297640125362718142091159654684310000000000000000000000000000000, 20180741159303314572513038941704620000000000000000000000000000000),
  (73835100999945033975427466706563150000000000000000000000000000000, 27088495235441060019404265506807030000000000000000000000000000000),
  (104830954508454757649265794665620200000000000000000000000000000000, 35059250645553908105648113551865990000000000000000000000000000000),
  (144202632321829602339105323296021100000000000000000000000000000000, 43770747108730917296278457424766450000000000000000000000000000000),
  (192451748856526270668257378438479700000000000000000000000000000000, 52714637764557376326984973351024600000000000000000000000000000000),
  (249487718617683899545215390800437800000000000000000000000000000000, 61222796831322758803955018606125000000000000000000000000000000000),
  (314499219128711776638533244040130400000000000000000000000000000000, 68537130096257491050184750902974650000000000000000000000000000000),
  (385915977734317479735952678695705100000000000000000000000000000000, 73918405034597219981273840627493190000000000000000000000000000000),
  (461491242972292285506702997366863100000000000000000000000000000000, 76774246489037192970740368063507510000000000000000000000000000000),
  (538508757027707714493297002633136900000000000000000000000000000000, 76774246489037192970740368063507510000000000000000000000000000000),
  (614084022265682520264047321304294900000000000000000000000000000000, 73918405034597219981273840627493190000000000000000000000000000000),
  (685500780871288223361466755959869700000000000000000000000000000000, 68537130096257491050184750902974650000000000000000000000000000000),
  (750512281382316100454784609199562100000000000000000000000000000000, 61222796831322758803955018606125000000000000000000000000000000000),
  (807548251143473729331742621561520300000000000000000000000000000000, 52714637764557376326984973351024600000000000000000000000000000000),
  (855797367678170397660894676703978900000000000000000000000000000000, 43770747108730917296278457424766450000000000000000000000000000000),
  (895169045491545242350734205334379800000000000000000000000000000000, 35059250645553908105648113551865990000000000000000000000000000000),
  (926164899000054966024572533293437000000000000000000000000000000000, 27088495235441060019404265506807030000000000000000000000000000000),
  (949702359874637281857908840345315600000000000000000000000000000000, 20180741159303314572513038941704620000000000000000000000000000000),
  (966930943279119558437817721609387700000000000000000000000000000000, 14481838506201788727295235128177070000000000000000000000000000000),
  (979070747308080459174406130122176200000000000000000000000000000000, 9993672297929908591459130283408068000000000000000000000000000000),
  (987289166136811301622345871346730900000000000000000000000000000000, 6616154955971049631053694042957098000000000000000000000000000000),
  (992620048805821084571126900989366600000000000000000000000000000000, 4188813052865613845262966065023441000000000000000000000000000000),
  (995921645361335086289131823502770300000000000000000000000000000000, 2526119481702558412343129018075338000000000000000000000000000000),
  (997865632121592645109576359896508000000000000000000000000000000000, 1444134482774206796274117937138266000000000000000000000000000000),
  (998948274234364295101652202668538900000000000000000000000000000000, 778222625195478887661039717756551500000000000000000000000000000),
  (999515198266821396481795601383927400000000000000000000000000000000, 392764869938445001392960092049950000000000000000000000000000000),
  (999792459278369549139176348577041700000000000000000000000000000000, 184298424650041327645073766558419600000000000000000000000000000),
  (999918149435400359656739798360109500000000000000000000000000000000, 79750035384355136886013846056434170000000000000000000000000000),
  (999970525150691940315505670457423600000000000000000000000000000000, 31538504103342870544295851629470780000000000000000000000000000),
  (999990403160861143936815266144893900000000000000000000000000000000, 11285822799466853273420158988932040000000000000000000000000000),
  (999997205171724835891925892093308800000000000000000000000000000000, 3614591455246021923515344391541586000000000000000000000000000),
  (999999280611629192901691923476964900000000000000000000000000000000, 1023773042903296938562818834654671000000000000000000000000000),
  (999999838465874015262917993347453600000000000000000000000000000000, 253068229467233097352592807916783800000000000000000000000000),
  (999999968811428830417402866485293900000000000000000000000000000000, 53810211677244047157311277906022440000000000000000000000000),
  (999999994903625174710359166457112500000000000000000000000000000000, 9686364882238795397241894446860566000000000000000000000000),
  (999999999307425339058029194897645800000000000000000000000000000000, 1450464319399300696435424471806292000000000000000000000000),
  (999999999923220921779047067807602500000000000000000000000000000000, 177221151611503443736999054132086300000000000000000000000),
  (999999999993202202418120317588951500000000000000000000000000000000, 17296100401097918354700577411543510000000000000000000000),
  (999999999999530454343148236051633800000000000000000000000000000000, 1317124754202045652714516942337996000000000000000000000),
  (999999999999975341535368225053907500000000000000000000000000000000, 76266722250504860231455516844828830000000000000000000),
  (999999999999999043074538146447251700000000000000000000000000000000, 3263690404953225766092629707599429000000000000000000),
  (999999999999999973405551436649547900000000000000000000000000000000, 100027180357729645379613612087819100000000000000000),
  (999999999999999999488693012423279500000000000000000000000000000000, 2120963734922078413603206990993759000000000000000),
  (999999999999999999993453902326181900000000000000000000000000000000, 29948958809643231281638633194446950000000000000),
  (999999999999999999999946491774155000000000000000000000000000000000, 270014227329227691966842658968232700000000000),
  (999999999999999999999999733411152600000000000000000000000000000000, 1483852173187747280328629811661247000000000)]

/-- n = 75. quadrature_lib.cpp:7872-7946. -/
def b75 : List (Nat × Nat) := [
  (140929592990920792922620863289077700000000, 784956066871751935297332802290364900000000),
  (28464171139536144875810062626587340000000000, 143880468659670729665548631746087900000000000),
  (3519285470004715499204401295832887000000000000, 16144810932678381829828576435595950000000000000),
  (278771700663447664742854117797439700000000000000, 1160701504920711678976553799412017000000000000000),
  (14744557536170706495054741523541200000000000000000, 55721029940888236279527322291269530000000000000000),
  (540624881775781671646957679172466200000000000000000, 1854495625168031703260622631767715000000000000000000),
  (14217709362752707317736617000405380000000000000000000, 44272537439164353474532518401897160000000000000000000),
  (276602552568547822507432611481648900000000000000000000, 781943783810857985273254876696108300000000000000000000),
  (4094131235358196794339857920205716000000000000000000000, 10508571444957315053630300314714400000000000000000000000),
  (47294439503892484184839918449039410000000000000000000000, 110233300897665402888845653253729000000000000000000000000),
  (436362193371164043236651036096119000000000000000000000000, 923721971445389947730690257692321700000000000000000000000),
  (3283946193311099255400007710550635000000000000000000000000, 6314910949589628392658879679236301000000000000000000000000),
  (20546765373516575630530254017114550000000000000000000000000, 35900082043020847734253165335750340000000000000000000000000),
  (108747131855367190425031360445655400000000000000000000000000, 172693584375216601882249222477177500000000000000000000000000),
  (494607146580038810235656624908266300000000000000000000000000, 714129839407851476646187140449134500000000000000000000000000),
  (1961055565495233897971577656417025000000000000000000000000000, 2575423388948024119036382818453487000000000000000000000000000),
  (6866901444770203685928667664099679000000000000000000000000000, 8206961632707765842376222849765972000000000000000000000000000),
  (21488980037573958145091870236518180000000000000000000000000000, 23386463409432267848757343556125720000000000000000000000000000),
  (60748048071608599458357335104537640000000000000000000000000000, 60245047134252429894044604818227900000000000000000000000000000),
  (156661852103410297130180574090766800000000000000000000000000000, 141696079298326800642995736024626500000000000000000000000000000),
  (371853022149871906313208762793932100000000000000000000000000000, 307035249189677934250361747357279700000000000000000000000000000),
  (818950024549020238753201080064248600000000000000000000000000000, 617956432610853925929458931642742900000000000000000000000000000),
  (1685710855960557025440622660777433000000000000000000000000000000, 1163741975378993270696723645106116000000000000000000000000000000),
  (3264285650453993422364754863600931000000000000000000000000000000, 2064078282842010458067096964804260000000000000000000000000000000),
  (5981422634248386788211922670447233000000000000000000000000000000, 3467855172413630367304566903768119000000000000000000000000000000),
  (10424802651190907776785453617093350000000000000000000000000000000, 5546371494608253676868439552778967000000000000000000000000000000),
  (17359184432212800755651414511171450000000000000000000000000000000, 8479536386721502749245887875820756000000000000000000000000000000),
  (27724782016115005173599814037794170000000000000000000000000000000, 12434001518885381247039505815132040000000000000000000000000000000),
  (42609573162078092187498823453513000000000000000000000000000000000, 17532947935287716459952023996235550000000000000000000000000000000),
  (63187681430942613406654408585765750000000000000000000000000000000, 23818858466771814990511296668721260000000000000000000000000000000),
  (90618560468305935872116359738401820000000000000000000000000000000, 31213302414878626769387482787251190000000000000000000000000000000),
  (125907488252152638048285293219384500000000000000000000000000000000, 39481362361217543699608908415427850000000000000000000000000000000),
  (169737345050593701085683894557331900000000000000000000000000000000, 48211859673771247173746497300938260000000000000000000000000000000),
  (222293843381895253373152596817727000000000000000000000000000000000, 56826086247959561999758568060447360000000000000000000000000000000),
  (283118154913198254787292815057628300000000000000000000000000000000, 64624995734109376589426713119439090000000000000000000000000000000),
  (351027054457496932372504800712998900000000000000000000000000000000, 70876277601222211188288614625997210000000000000000000000000000000),
  (424135769361901451521473195543533100000000000000000000000000000000, 74929522485285946268765526892023160000000000000000000000000000000),
  (500000000000000000000000000000000000000000000000000000000000000000, 76334341016546473522683365697326890000000000000000000000000000000),
  (575864230638098548478526804456466800000000000000000000000000000000, 74929522485285946268765526892023160000000000000000000000000000000),
  (648972945542503067627495199287001200000000000000000000000000000000, 70876277601222211188288614625997210000000000000000000000000000000),
  (716881845086801745212707184942371600000000000000000000000000000000, 64624995734109376589426713119439090000000000000000000000000000000),
  (777706156618104746626847403182273000000000000000000000000000000000, 56826086247959561999758568060447380000000000000000000000000000000),
  (830262654949406298914316105442668200000000000000000000000000000000, 48211859673771247173746497300938260000000000000000000000000000000),
  (874092511747847361951714706780615500000000000000000000000000000000, 39481362361217543699608908415427850000000000000000000000000000000),
  (909381439531694064127883640261598100000000000000000000000000000000, 31213302414878626769387482787251190000000000000000000000000000000),
  (936812318569057386593345591414234300000000000000000000000000000000, 23818858466771814990511296668721250000000000000000000000000000000),
  (957390426837921907812501176546487000000000000000000000000000000000, 17532947935287716459952023996235550000000000000000000000000000000),
  (972275217983884994826400185962205700000000000000000000000000000000, 12434001518885381247039505815132040000000000000000000000000000000),
  (982640815567787199244348585488828600000000000000000000000000000000, 8479536386721502749245887875820754000000000000000000000000000000),
  (989575197348809092223214546382906700000000000000000000000000000000, 5546371494608253676868439552778971000000000000000000000000000000),
  (994018577365751613211788077329552800000000000000000000000000000000, 3467855172413630367304566903768120000000000000000000000000000000),
  (996735714349546006577635245136399000000000000000000000000000000000, 2064078282842010458067096964804260000000000000000000000000000000),
  (998314289144039442974559377339222600000000000000000000000000000000, 1163741975378993270696723645106116000000000000000000000000000000),
  (999181049975450979761246798919935900000000000000000000000000000000, 617956432610853925929458931642742900000000000000000000000000000),
  (999628146977850128093686791237206100000000000000000000000000000000, 307035249189677934250361747357279700000000000000000000000000000),
  (999843338147896589702869819425909300000000000000000000000000000000, 141696079298326800642995736024626500000000000000000000000000000),
  (999939251951928391400541642664895400000000000000000000000000000000, 60245047134252429894044604818227900000000000000000000000000000),
  (999978511019962426041854908129763500000000000000000000000000000000, 23386463409432267848757343556125760000000000000000000000000000),
  (999993133098555229796314071332336000000000000000000000000000000000, 8206961632707765842376222849765972000000000000000000000000000),
  (999998038944434504766102028422343600000000000000000000000000000000, 2575423388948024119036382818453487000000000000000000000000000),
  (999999505392853419961189764343375000000000000000000000000000000000, 714129839407851476646187140449134500000000000000000000000000),
  (999999891252868144632809574968639700000000000000000000000000000000, 172693584375216601882249222477177500000000000000000000000000),
  (999999979453234626483424369469745900000000000000000000000000000000, 35900082043020847734253165335750340000000000000000000000000),
  (999999996716053806688900744599992200000000000000000000000000000000, 6314910949589628392658879679236300000000000000000000000000),
  (999999999563637806628835956763348900000000000000000000000000000000, 923721971445389947730690257692321700000000000000000000000),
  (999999999952705560496107515815160000000000000000000000000000000000, 110233300897665402888845653253729000000000000000000000000),
  (999999999995905868764641803205660100000000000000000000000000000000, 10508571444957315053630300314714410000000000000000000000),
  (999999999999723397447431452177492600000000000000000000000000000000, 781943783810857985273254876696108300000000000000000000),
  (999999999999985782290637247292682400000000000000000000000000000000, 44272537439164353474532518401897160000000000000000000),
  (999999999999999459375118224218328400000000000000000000000000000000, 1854495625168031703260622631767715000000000000000000),
  (999999999999999985255442463829293400000000000000000000000000000000, 55721029940888236279527322291269540000000000000000),
  (999999999999999999721228299336552300000000000000000000000000000000, 1160701504920711678976553799412017000000000000000),
  (999999999999999999996480714529995200000000000000000000000000000000, 16144810932678381829828576435595950000000000000),
  (999999999999999999999971535828860400000000000000000000000000000000, 143880468659670729665548631746087900000000000),
  (999999999999999999999999859070407000000000000000000000000000000000, 784956066871751935297332802290364900000000)]

/-- n = 76. quadrature_lib.cpp:7947-8022. -/
def b76 : List (Nat × Nat) := [
  (74608221471646828812081631985111690000000, 415831527716877846249202821163760200000000),
  (15161465092903682525098419610872090000000000, 76765258627656025255101784890737530000000000),
  (1894068959859824245981425740484761000000000000, 8712173437454112745343359511522595000000000000),
  (152112521022199088946782537770018300000000000000, 635653240836011885761456912897775900000000000000),
  (8178738536670205821438765274613493000000000000000, 31051835708573923542616000805822610000000000000000),
  (305480860587881403243762119432280700000000000000000, 1053795037521755060187460987912535000000000000000000),
  (8196284736855005710085464902331219000000000000000000, 25691608780980525553019913430327930000000000000000000),
  (162859897448448379284998452163750100000000000000000000, 463903875099314263537203289607800500000000000000000000),
  (2463748096688627246022241813122629000000000000000000000, 6378155279501001541259905255300398000000000000000000000),
  (29099660339997552826471379002413700000000000000000000000, 68474137150684705931708551525069180000000000000000000000),
  (274547900711280049484011726447903100000000000000000000000, 587304204409109647280475711798369500000000000000000000000),
  (2112577495045897074184211905339997000000000000000000000000, 4109078092463180216214181782590923000000000000000000000000),
  (13510685712948011941113589904954500000000000000000000000000, 23899740185585208592954848180255350000000000000000000000000),
  (73059116675936816815341866524531100000000000000000000000000, 117568733671238952560214742138304700000000000000000000000000),
  (339305579891862953421499082393796000000000000000000000000000, 496880652343516509230741927762895600000000000000000000000000),
  (1372784482828315864212233404110739000000000000000000000000000, 1830115012373875148950318967730342000000000000000000000000000),
  (4901494315436840197987518753892431000000000000000000000000000, 5951486282799208940463347164738813000000000000000000000000000),
  (15627355308419168434440660694866110000000000000000000000000000, 17292181900832718218752423653764150000000000000000000000000000),
  (44970859603984662113621099145372120000000000000000000000000000, 45379039088520848568366752906290860000000000000000000000000000),
  (117952050195585776874746639816606300000000000000000000000000000, 108625491555812159891112748176989800000000000000000000000000000),
  (284488514503350476169579516559347200000000000000000000000000000, 239323969588383633770755962555600900000000000000000000000000000),
  (636077959046541066690263116516160900000000000000000000000000000, 489289729071238516590105260420341100000000000000000000000000000),
  (1328042211677769802633548549628716000000000000000000000000000000, 935135852742553430690205368606329600000000000000000000000000000),
  (2606304109201802366055728288456822000000000000000000000000000000, 1681819342134542669438996416480366000000000000000000000000000000),
  (4836220530008266223869378457855836000000000000000000000000000000, 2862954452863695050808570694513300000000000000000000000000000000),
  (8529490326438316188857987546099890000000000000000000000000000000, 4636409392514025589407173330226401000000000000000000000000000000),
  (14363725120150562901829010536203800000000000000000000000000000000, 7173822713622504158549291414505222000000000000000000000000000000),
  (23188011761965689948743384732900150000000000000000000000000000000, 10642913829779007813563711200690170000000000000000000000000000000),
  (36006899930819329554451397856764470000000000000000000000000000000, 15181995321344318824262413807615830000000000000000000000000000000),
  (53935162922322846558861404164476790000000000000000000000000000000, 20867239934985365321652906712721630000000000000000000000000000000),
  (78117180958974132946614930951458230000000000000000000000000000000, 27675321712468142435296258965436460000000000000000000000000000000),
  (109608859424458655782662467875214000000000000000000000000000000000, 35447073342787238308185945055243570000000000000000000000000000000),
  (149227355637927607735111648240570600000000000000000000000000000000, 43861215982184130182021069855242230000000000000000000000000000000),
  (197384316861314515871335359774189200000000000000000000000000000000, 52429641033780294354256737717026810000000000000000000000000000000),
  (253929855185476356142027953232807600000000000000000000000000000000, 60525129481520715717638156239675160000000000000000000000000000000),
  (318043099245114283755741264056118600000000000000000000000000000000, 67446953190529196152993594690857600000000000000000000000000000000),
  (388205720164599448050878342664351900000000000000000000000000000000, 72519312785469139095570210766377350000000000000000000000000000000),
  (462283363700535221695624964301678400000000000000000000000000000000, 75204726497923699316194175590096570000000000000000000000000000000),
  (537716636299464778304375035698321500000000000000000000000000000000, 75204726497923699316194175590096570000000000000000000000000000000),
  (611794279835400551949121657335648100000000000000000000000000000000, 72519312785469139095570210766377350000000000000000000000000000000),
  (681956900754885716244258735943881400000000000000000000000000000000, 67446953190529196152993594690857600000000000000000000000000000000),
  (746070144814523643857972046767192300000000000000000000000000000000, 60525129481520715717638156239675160000000000000000000000000000000),
  (802615683138685484128664640225810900000000000000000000000000000000, 52429641033780294354256737717026810000000000000000000000000000000),
  (850772644362072392264888351759429300000000000000000000000000000000, 43861215982184130182021069855242230000000000000000000000000000000),
  (890391140575541344217337532124786100000000000000000000000000000000, 35447073342787238308185945055243570000000000000000000000000000000),
  (921882819041025867053385069048541700000000000000000000000000000000, 27675321712468142435296258965436460000000000000000000000000000000),
  (946064837077677153441138595835523300000000000000000000000000000000, 20867239934985365321652906712721630000000000000000000000000000000),
  (963993100069180670445548602143235500000000000000000000000000000000, 15181995321344318824262413807615830000000000000000000000000000000),
  (976811988238034310051256615267099800000000000000000000000000000000, 10642913829779007813563711200690170000000000000000000000000000000),
  (985636274879849437098170989463796200000000000000000000000000000000, 7173822713622504158549291414505222000000000000000000000000000000),
  (991470509673561683811142012453900000000000000000000000000000000000, 4636409392514025589407173330226401000000000000000000000000000000),
  (995163779469991733776130621542144100000000000000000000000000000000, 2862954452863695050808570694513300000000000000000000000000000000),
  (997393695890798197633944271711543100000000000000000000000000000000, 1681819342134542669438996416480366000000000000000000000000000000),
  (998671957788322230197366451450371300000000000000000000000000000000, 935135852742553430690205368606329300000000000000000000000000000),
  (999363922040953458933309736883483900000000000000000000000000000000, 489289729071238516590105260420341100000000000000000000000000000),
  (999715511485496649523830420483440700000000000000000000000000000000, 239323969588383633770755962555600900000000000000000000000000000),
  (999882047949804414223125253360183300000000000000000000000000000000, 108625491555812159891112748176989800000000000000000000000000000),
  (999955029140396015337886378900854600000000000000000000000000000000, 45379039088520848568366752906290860000000000000000000000000000),
  (999984372644691580831565559339305100000000000000000000000000000000, 17292181900832718218752423653764190000000000000000000000000000),
  (999995098505684563159802012481246100000000000000000000000000000000, 5951486282799208940463347164738802000000000000000000000000000),
  (999998627215517171684135787766595900000000000000000000000000000000, 1830115012373875148950318967730343000000000000000000000000000),
  (999999660694420108137046578500917600000000000000000000000000000000, 496880652343516509230741927762895400000000000000000000000000),
  (999999926940883324063183184658133500000000000000000000000000000000, 117568733671238952560214742138304700000000000000000000000000),
  (999999986489314287051988058886410000000000000000000000000000000000, 23899740185585208592954848180255350000000000000000000000000),
  (999999997887422504954102925815788000000000000000000000000000000000, 4109078092463180216214181782590923000000000000000000000000),
  (999999999725452099288719950515988200000000000000000000000000000000, 587304204409109647280475711798369500000000000000000000000),
  (999999999970900339660002447173528700000000000000000000000000000000, 68474137150684705931708551525069180000000000000000000000),
  (999999999997536251903311372753977700000000000000000000000000000000, 6378155279501001541259905255300398000000000000000000000),
  (999999999999837140102551551620715000000000000000000000000000000000, 463903875099314263537203289607800500000000000000000000),
  (999999999999991803715263144994289900000000000000000000000000000000, 25691608780980525553019913430327930000000000000000000),
  (999999999999999694519139412118596700000000000000000000000000000000, 1053795037521755060187460987912535000000000000000000),
  (999999999999999991821261463329794200000000000000000000000000000000, 31051835708573923542616000805822610000000000000000),
  (999999999999999999847887478977801000000000000000000000000000000000, 635653240836011885761456912897775900000000000000),
  (999999999999999999998105931040140300000000000000000000000000000000, 8712173437454112745343359511522650000000000000),
  (999999999999999999999984838534907000000000000000000000000000000000, 76765258627656025255101784890737510000000000),
  (999999999999999999999999925391778500000000000000000000000000000000, 415831527716877846249202821163760400000000)]

/-- n = 77. quadrature_lib.cpp:8023-8099. -/
def b77 : List (Nat × Nat) := [
  (39553494906247755678547012241134080000000, 220595420617414497501629509207620900000000),
  (8086114062510596127197040435525743000000000, 41007877657232666749193724789901280000000000),
  (1020471373680652893037867333117773000000000000, 4706063619882893924924179665949796000000000000),
  (83067028252780502436939427698418940000000000000, 348362814938423675064932510193114900000000000000),
  (4538963686196363667469069787165919000000000000000, 17311155735247391687822964657480450000000000000000),
  (172642558437297647428721842869558300000000000000000, 598835784783761629247855197029992600000000000000000),
  (4724302579356284586806070289536954000000000000000000, 14904502247530394381054323729923210000000000000000000),
  (95843901870239409523295519555853310000000000000000000, 275042396282933685614258896825276100000000000000000000),
  (1481451458684766063643474388914006000000000000000000000, 3867415816604547847823712715939395000000000000000000000),
  (17885220678506561801523931713935760000000000000000000000, 42479350819140715016561719923193430000000000000000000000),
  (172504059062848691614724708645866900000000000000000000000, 372816939585317092580870836722291900000000000000000000000),
  (1356850915360608849727962801364255000000000000000000000000, 2668804952812404180690677945424776000000000000000000000000),
  (8867860852169663022113905193766976000000000000000000000000, 15877541923385705056835803591584540000000000000000000000000),
  (48984179667571381500153971483286300000000000000000000000000, 79856471161821878236571031964500100000000000000000000000000),
  (232261165069338785015317492729444700000000000000000000000000, 344868562084599676155563847556531700000000000000000000000000),
  (958766747909689716750989477322504300000000000000000000000000, 1297097683483331907906287448794455000000000000000000000000000),
  (3490200465068878474861100019642331000000000000000000000000000, 4304126354855743869333881029602361000000000000000000000000000),
  (11336473471571591919471060541786040000000000000000000000000000, 12750214211501391511773439997853270000000000000000000000000000),
  (33207297466411523751787608879550090000000000000000000000000000, 34084036037252315470687574519859990000000000000000000000000000),
  (88581513158873888858013050555437400000000000000000000000000000, 83034622573996473092513041272886000000000000000000000000000000),
  (217097761471743118855556450855578300000000000000000000000000000, 186011656552875431512078001005050600000000000000000000000000000),
  (492799735355587877877889288079356600000000000000000000000000000, 386314317929707253221411817100614700000000000000000000000000000),
  (1043671053322391440275840706128833000000000000000000000000000000, 749331227559143348963782758713110700000000000000000000000000000),
  (2075886653105168836344807587948081000000000000000000000000000000, 1366556313535317553080908974802408000000000000000000000000000000),
  (3900923002296323545679215404341223000000000000000000000000000000, 2357057172636359560232204840475368000000000000000000000000000000),
  (6962282886511475794965252861715059000000000000000000000000000000, 3865009323667112858653432971341624000000000000000000000000000000),
  (11857238820315935443584560120991800000000000000000000000000000000, 6051992751097550266709865813562279000000000000000000000000000000),
  (19347770766572736590978779675440950000000000000000000000000000000, 9082916010447882816848214775442540000000000000000000000000000000),
  (30353894761035010136709804666793310000000000000000000000000000000, 13104793267275641725976627162268150000000000000000000000000000000),
  (45922154621109915471134425396869850000000000000000000000000000000, 18218399275809299163532222374883090000000000000000000000000000000),
  (67162772396984467519643931939059710000000000000000000000000000000, 24444369655021574128212917416083030000000000000000000000000000000),
  (95151669927164762919400874060035610000000000000000000000000000000, 31687758525463914902238662110373260000000000000000000000000000000),
  (130799102765275442226529492707324700000000000000000000000000000000, 39708151354290500449844051662942760000000000000000000000000000000),
  (174695224557483400218122438601908800000000000000000000000000000000, 48105221424451953580063215436100490000000000000000000000000000000),
  (226953460605423813926094805401668400000000000000000000000000000000, 56330480820019735487970428778424310000000000000000000000000000000),
  (287082241483204911854124005326794600000000000000000000000000000000, 63733059807434077395230115501554290000000000000000000000000000000),
  (353920029330134605917188184578628200000000000000000000000000000000, 69639665057200415623857747004441070000000000000000000000000000000),
  (425663261301060126203774313770468900000000000000000000000000000000, 73457600498760646178408611907197160000000000000000000000000000000),
  (500000000000000000000000000000000000000000000000000000000000000000, 74778795506301621560568422484004810000000000000000000000000000000),
  (574336738698939873796225686229531100000000000000000000000000000000, 73457600498760646178408611907197160000000000000000000000000000000),
  (646079970669865394082811815421371800000000000000000000000000000000, 69639665057200415623857747004441070000000000000000000000000000000),
  (712917758516795088145875994673205400000000000000000000000000000000, 63733059807434077395230115501554290000000000000000000000000000000),
  (773046539394576186073905194598331700000000000000000000000000000000, 56330480820019735487970428778424310000000000000000000000000000000),
  (825304775442516599781877561398091300000000000000000000000000000000, 48105221424451953580063215436100490000000000000000000000000000000),
  (869200897234724557773470507292675400000000000000000000000000000000, 39708151354290500449844051662942760000000000000000000000000000000),
  (904848330072835237080599125939964400000000000000000000000000000000, 31687758525463914902238662110373270000000000000000000000000000000),
  (932837227603015532480356068060940400000000000000000000000000000000, 24444369655021574128212917416083030000000000000000000000000000000),
  (954077845378890084528865574603130200000000000000000000000000000000, 18218399275809299163532222374883090000000000000000000000000000000),
  (969646105238964989863290195333206600000000000000000000000000000000, 13104793267275641725976627162268150000000000000000000000000000000),
  (980652229233427263409021220324559100000000000000000000000000000000, 9082916010447882816848214775442540000000000000000000000000000000),
  (988142761179684064556415439879008200000000000000000000000000000000, 6051992751097550266709865813562279000000000000000000000000000000),
  (993037717113488524205034747138284900000000000000000000000000000000, 3865009323667112858653432971341624000000000000000000000000000000),
  (996099076997703676454320784595658800000000000000000000000000000000, 2357057172636359560232204840475368000000000000000000000000000000),
  (997924113346894831163655192412051900000000000000000000000000000000, 1366556313535317553080908974802408000000000000000000000000000000),
  (998956328946677608559724159293871200000000000000000000000000000000, 749331227559143348963782758713110600000000000000000000000000000),
  (999507200264644412122122110711920700000000000000000000000000000000, 386314317929707253221411817100614700000000000000000000000000000),
  (999782902238528256881144443549144300000000000000000000000000000000, 186011656552875431512078001005050600000000000000000000000000000),
  (999911418486841126111141986949444600000000000000000000000000000000, 83034622573996473092513041272886010000000000000000000000000000),
  (999966792702533588476248212391120500000000000000000000000000000000, 34084036037252315470687574519859990000000000000000000000000000),
  (999988663526528428408080528939458300000000000000000000000000000000, 12750214211501391511773439997853250000000000000000000000000000),
  (999996509799534931121525138899980400000000000000000000000000000000, 4304126354855743869333881029602361000000000000000000000000000),
  (999999041233252090310283249010522700000000000000000000000000000000, 1297097683483331907906287448794455000000000000000000000000000),
  (999999767738834930661214984682507200000000000000000000000000000000, 344868562084599676155563847556531700000000000000000000000000),
  (999999951015820332428618499846028500000000000000000000000000000000, 79856471161821878236571031964500100000000000000000000000000),
  (999999991132139147830336977886094700000000000000000000000000000000, 15877541923385705056835803591584540000000000000000000000000),
  (999999998643149084639391150272037200000000000000000000000000000000, 2668804952812404180690677945424777000000000000000000000000),
  (999999999827495940937151308385275300000000000000000000000000000000, 372816939585317092580870836722292000000000000000000000000),
  (999999999982114779321493438198476100000000000000000000000000000000, 42479350819140715016561719923193300000000000000000000000),
  (999999999998518548541315233936356500000000000000000000000000000000, 3867415816604547847823712715939395000000000000000000000),
  (999999999999904156098129760590476700000000000000000000000000000000, 275042396282933685614258896825276000000000000000000000),
  (999999999999995275697420643715413100000000000000000000000000000000, 14904502247530394381054323729923210000000000000000000),
  (999999999999999827357441562702352500000000000000000000000000000000, 598835784783761629247855197029992600000000000000000),
  (999999999999999995461036313803636400000000000000000000000000000000, 17311155735247391687822964657480450000000000000000),
  (999999999999999999916932971747219500000000000000000000000000000000, 348362814938423675064932510193117100000000000000),
  (999999999999999999998979528626319300000000000000000000000000000000, 4706063619882893924924179665949796000000000000),
  (999999999999999999999991913885937400000000000000000000000000000000, 41007877657232666749193724789901280000000000),
  (999999999999999999999999960446505200000000000000000000000000000000, 220595420617414497501629509207620900000000)]

/-- n = 78. quadrature_lib.cpp:8100-8177. -/
def b78 : List (Nat × Nat) := [
  (20998412333698054967484845724221470000000, 117185143644637144536482059956756700000000),
  (4318036134220145551918528230300250000000000, 21933189568639801651863760482453150000000000),
  (550381951120410986026069437363938700000000000, 2544616133437976368942478112572126000000000000),
  (45398119890250409674516384894589550000000000000, 191053239413809466583293331882266700000000000000),
  (2520256092596236766237232314121065000000000000000, 9654700680610743188586260022609832000000000000000),
  (97587253207033063489499362600543860000000000000000, 340320379184001432853641582591252000000000000000000),
  (2722705341761924643143936585266048000000000000000000, 8644186433031410653322577251802671000000000000000000),
  (56379259338454279920452370661847280000000000000000000, 162969047138357600768607537813296400000000000000000000),
  (890123154663210718479623703548472900000000000000000000, 2342819024562672700053286924856530000000000000000000000),
  (10981116334996866326864928758632520000000000000000000000, 26320067208385822416501386938528480000000000000000000000),
  (108245470522377230836479824842444800000000000000000000000, 236298599240159413636609365007045700000000000000000000000),
  (870111245660327187238042573685032900000000000000000000000, 1730247782619164370166776068146252000000000000000000000000),
  (5810171174582740848552437810992461000000000000000000000000, 10526653918824462963959088285531220000000000000000000000000),
  (32778065630234535544921210261817940000000000000000000000000, 54119774422743877875895335157488220000000000000000000000000),
  (158649289815940761759068354389973500000000000000000000000000, 238784662050795838484828284590186400000000000000000000000000),
  (668100628745644656516802862191338700000000000000000000000000, 916970561853086727055091199040623400000000000000000000000000),
  (2479393017347454949596167495861504000000000000000000000000000, 3104442456661793027763998683805394000000000000000000000000000),
  (8203715770595616705771780526022969000000000000000000000000000, 9375366132804204516599868109392342000000000000000000000000000),
  (24459904642229732154925443118622760000000000000000000000000000, 25528594943618627716060401212890700000000000000000000000000000),
  (66357396834767981808991979514164480000000000000000000000000000, 63293079728360116320254403333963400000000000000000000000000000),
  (165254882217090257362291374682632900000000000000000000000000000, 144166345926738253058228439969788100000000000000000000000000000),
  (380843927102838595267594815498752600000000000000000000000000000, 304154374778491506472437842236305200000000000000000000000000000),
  (818175156674408331765294295570165000000000000000000000000000000, 598777673713800610172209341324358300000000000000000000000000000),
  (1649419904613821246486932513767162000000000000000000000000000000, 1107346136717050201492025888587477000000000000000000000000000000),
  (3139037075573142432072630184089628000000000000000000000000000000, 1935281191614097262206367999507190000000000000000000000000000000),
  (5669749075452546654933022294304688000000000000000000000000000000, 3213198994011465989668929958524129000000000000000000000000000000),
  (9765462133177105271110659460951103000000000000000000000000000000, 5091517944870992800564559477758832000000000000000000000000000000),
  (16106084855694293727366698802801320000000000000000000000000000000, 7729476817500348055659362543383258000000000000000000000000000000),
  (25528192270287313336897228079618060000000000000000000000000000000, 11277695606404963093141878837241740000000000000000000000000000000),
  (39004853577580422374173836780037220000000000000000000000000000000, 15853960878585600854854485314368720000000000000000000000000000000),
  (57598126209090270661781942176945680000000000000000000000000000000, 21513041075097014256044704447940490000000000000000000000000000000),
  (82379412742272653245434367945434670000000000000000000000000000000, 28213254164148971805738041552918300000000000000000000000000000000),
  (114316879884280205025991182355767200000000000000000000000000000000, 35785164589317876964721763676364850000000000000000000000000000000),
  (154135950502936575099386426436112900000000000000000000000000000000, 43910599481116597700959123265912600000000000000000000000000000000),
  (202168095663805719464701757255453000000000000000000000000000000000, 52121913675687002670236960693630610000000000000000000000000000000),
  (258212879475794507159364121048302300000000000000000000000000000000, 59830428985518858771679711158041120000000000000000000000000000000),
  (321444947833688235819149030972362000000000000000000000000000000000, 66387857729300339693093804377468030000000000000000000000000000000),
  (390397162510886478671182548681830300000000000000000000000000000000, 71175374673808684575952536421631230000000000000000000000000000000),
  (463040344469730337897628288710235300000000000000000000000000000000, 73704265781586183247252371852446040000000000000000000000000000000),
  (536959655530269662102371711289764700000000000000000000000000000000, 73704265781586183247252371852446040000000000000000000000000000000),
  (609602837489113521328817451318169700000000000000000000000000000000, 71175374673808684575952536421631230000000000000000000000000000000),
  (678555052166311764180850969027638000000000000000000000000000000000, 66387857729300339693093804377468030000000000000000000000000000000),
  (741787120524205492840635878951697700000000000000000000000000000000, 59830428985518858771679711158041120000000000000000000000000000000),
  (797831904336194280535298242744547000000000000000000000000000000000, 52121913675687002670236960693630610000000000000000000000000000000),
  (845864049497063424900613573563887100000000000000000000000000000000, 43910599481116597700959123265912600000000000000000000000000000000),
  (885683120115719794974008817644232800000000000000000000000000000000, 35785164589317876964721763676364850000000000000000000000000000000),
  (917620587257727346754565632054565400000000000000000000000000000000, 28213254164148971805738041552918290000000000000000000000000000000),
  (942401873790909729338218057823054400000000000000000000000000000000, 21513041075097014256044704447940490000000000000000000000000000000),
  (960995146422419577625826163219962800000000000000000000000000000000, 15853960878585600854854485314368720000000000000000000000000000000),
  (974471807729712686663102771920381900000000000000000000000000000000, 11277695606404963093141878837241740000000000000000000000000000000),
  (983893915144305706272633301197198700000000000000000000000000000000, 7729476817500348055659362543383259000000000000000000000000000000),
  (990234537866822894728889340539048900000000000000000000000000000000, 5091517944870992800564559477758832000000000000000000000000000000),
  (994330250924547453345066977705695400000000000000000000000000000000, 3213198994011465989668929958524129000000000000000000000000000000),
  (996860962924426857567927369815910300000000000000000000000000000000, 1935281191614097262206367999507190000000000000000000000000000000),
  (998350580095386178753513067486232900000000000000000000000000000000, 1107346136717050201492025888587477000000000000000000000000000000),
  (999181824843325591668234705704429800000000000000000000000000000000, 598777673713800610172209341324358300000000000000000000000000000),
  (999619156072897161404732405184501200000000000000000000000000000000, 304154374778491506472437842236305200000000000000000000000000000),
  (999834745117782909742637708625317400000000000000000000000000000000, 144166345926738253058228439969788100000000000000000000000000000),
  (999933642603165232018191008020485800000000000000000000000000000000, 63293079728360116320254403333963310000000000000000000000000000),
  (999975540095357770267845074556881300000000000000000000000000000000, 25528594943618627716060401212890700000000000000000000000000000),
  (999991796284229404383294228219474000000000000000000000000000000000, 9375366132804204516599868109392342000000000000000000000000000),
  (999997520606982652545050403832504000000000000000000000000000000000, 3104442456661793027763998683805394000000000000000000000000000),
  (999999331899371254355343483197137800000000000000000000000000000000, 916970561853086727055091199040623400000000000000000000000000),
  (999999841350710184059238240931645600000000000000000000000000000000, 238784662050795838484828284590186400000000000000000000000000),
  (999999967221934369765464455078789900000000000000000000000000000000, 54119774422743877875895335157488220000000000000000000000000),
  (999999994189828825417259151447562200000000000000000000000000000000, 10526653918824462963959088285531220000000000000000000000000),
  (999999999129888754339672812761957400000000000000000000000000000000, 1730247782619164370166776068146252000000000000000000000000),
  (999999999891754529477622769163520100000000000000000000000000000000, 236298599240159413636609365007046400000000000000000000000),
  (999999999989018883665003133673135000000000000000000000000000000000, 26320067208385822416501386938528480000000000000000000000),
  (999999999999109876845336789281520300000000000000000000000000000000, 2342819024562672700053286924856530000000000000000000000),
  (999999999999943620740661545720079500000000000000000000000000000000, 162969047138357600768607537813296400000000000000000000),
  (999999999999997277294658238075356800000000000000000000000000000000, 8644186433031410653322577251802671000000000000000000),
  (999999999999999902412746792966936500000000000000000000000000000000, 340320379184001432853641582591252000000000000000000),
  (999999999999999997479743907403763200000000000000000000000000000000, 9654700680610743188586260022609832000000000000000),
  (999999999999999999954601880109749500000000000000000000000000000000, 191053239413809466583293331882265500000000000000),
  (999999999999999999999449618048879500000000000000000000000000000000, 2544616133437976368942478112572126000000000000),
  (999999999999999999999995681963865700000000000000000000000000000000, 21933189568639801651863760482453150000000000),
  (999999999999999999999999979001587700000000000000000000000000000000, 117185143644637144536482059956756700000000)]

/-- n = 79. quadrature_lib.cpp:8178-8256. -/
def b79 : List (Nat × Nat) := [
  (11163015100099695728018110636794620000000, 62335560341063017650072599949044970000000),
  (2308725324153152661492822814739035000000000, 11745205682598721126868024371742200000000000),
  (297153274356769147639309491556101300000000000, 1377258559023191650399216512006179000000000000),
  (24830790893709056894414680120730140000000000000, 104854551598693861756276768617510500000000000000),
  (1400076643802678192067598082605684000000000000000, 5386772091402886443484103162046566000000000000000),
  (55172780505631656713613577388605680000000000000000, 193421051116879178111093997949844900000000000000000),
  (1568969245662718053383728623101566000000000000000000, 5012125064675661750540858483827224000000000000000000),
  (33150530125601451940156870679616980000000000000000000, 96506927596533615695016372728638330000000000000000000),
  (534439694207398396506783629662393700000000000000000000, 1417965699884165823938281744788542000000000000000000000),
  (6735364964761546119351412520167865000000000000000000000, 16288213981792235733300696115353240000000000000000000000),
  (67837180522615812379181015143528750000000000000000000000, 149548194351383298239507741963129200000000000000000000000),
  (557134809724309511670001015315298500000000000000000000000, 1119803453090701783654252726438799000000000000000000000000),
  (3800213832314886035940180472667333000000000000000000000000, 6965276351127229344567022367072913000000000000000000000000),
  (21891605362375501985428643603714510000000000000000000000000, 36597697091015365542592860414630500000000000000000000000000),
  (108142435742187092616381860688603700000000000000000000000000, 164943315811722983105026567588982500000000000000000000000000),
  (464524901116901380858393631769581500000000000000000000000000, 646621272217122980676491361423774500000000000000000000000000),
  (1757244933913878274961156535106389000000000000000000000000000, 2233281664248874935744136120171444000000000000000000000000000),
  (5922440149936433756814720031076652000000000000000000000000000, 6875157093108070980722181739663298000000000000000000000000000),
  (17972577756312814158387126076987890000000000000000000000000000, 19067838687274661963507641317585500000000000000000000000000000),
  (49585844347459459902653791687950230000000000000000000000000000, 48110400818257501804090737436557430000000000000000000000000000),
  (125479564218353363765419175227552000000000000000000000000000000, 111422093451581805881618834827099800000000000000000000000000000),
  (293595593456549310942142626474332800000000000000000000000000000, 238802003164805518045987366273932700000000000000000000000000000),
  (639834716309852370110358097034084600000000000000000000000000000, 477156805492321517344398923284501700000000000000000000000000000),
  (1307419767963930521700436687665292000000000000000000000000000000, 894867023877831795517905913289004300000000000000000000000000000),
  (2520000882699193969928217666363535000000000000000000000000000000, 1584712009542710013306478825980508000000000000000000000000000000),
  (4606472848579850847088145868273938000000000000000000000000000000, 2664170574780983128723109964545488000000000000000000000000000000),
  (8024292234134387329488771051371298000000000000000000000000000000, 4271931305654963711921973801493406000000000000000000000000000000),
  (13376955953590161686570845498804730000000000000000000000000000000, 6559536553309752948137130125203827000000000000000000000000000000),
  (21420302895259374899640077627908820000000000000000000000000000000, 9677255956631733355352608920092330000000000000000000000000000000),
  (33051558298016343084406155244265930000000000000000000000000000000, 13753659919372587818699706509262690000000000000000000000000000000),
  (49274865319655662023209123657610660000000000000000000000000000000, 18869164655951984018944912983185760000000000000000000000000000000),
  (71137988930699143490780410837418580000000000000000000000000000000, 25025283097283169732767345544955880000000000000000000000000000000),
  (99637654221672030576115178165237200000000000000000000000000000000, 32113512916165171988787495841489280000000000000000000000000000000),
  (135596214565140516068554219093872300000000000000000000000000000000, 39890413767935726596573015297299320000000000000000000000000000000),
  (179520073399280236100409054331751500000000000000000000000000000000, 47967600076672002050121615599326920000000000000000000000000000000),
  (231459396735330884689070096183631000000000000000000000000000000000, 55825712617149770747609029529271620000000000000000000000000000000),
  (290896558862396561711330353398140800000000000000000000000000000000, 62858472748850414770831646162149540000000000000000000000000000000),
  (356693737299032706235388491482458300000000000000000000000000000000, 68446041043335531978447351224115900000000000000000000000000000000),
  (427124609842713970315734920656781300000000000000000000000000000000, 72047298251672252791073571845937210000000000000000000000000000000),
  (500000000000000000000000000000000000000000000000000000000000000000, 73291686973441597046361689408240770000000000000000000000000000000),
  (572875390157286029684265079343218600000000000000000000000000000000, 72047298251672252791073571845937210000000000000000000000000000000),
  (643306262700967293764611508517541700000000000000000000000000000000, 68446041043335531978447351224115900000000000000000000000000000000),
  (709103441137603438288669646601859200000000000000000000000000000000, 62858472748850414770831646162149540000000000000000000000000000000),
  (768540603264669115310929903816369100000000000000000000000000000000, 55825712617149770747609029529271620000000000000000000000000000000),
  (820479926600719763899590945668248400000000000000000000000000000000, 47967600076672002050121615599326920000000000000000000000000000000),
  (864403785434859483931445780906127600000000000000000000000000000000, 39890413767935726596573015297299320000000000000000000000000000000),
  (900362345778327969423884821834762700000000000000000000000000000000, 32113512916165171988787495841489280000000000000000000000000000000),
  (928862011069300856509219589162581400000000000000000000000000000000, 25025283097283169732767345544955880000000000000000000000000000000),
  (950725134680344337976790876342389400000000000000000000000000000000, 18869164655951984018944912983185760000000000000000000000000000000),
  (966948441701983656915593844755734000000000000000000000000000000000, 13753659919372587818699706509262690000000000000000000000000000000),
  (978579697104740625100359922372091300000000000000000000000000000000, 9677255956631733355352608920092327000000000000000000000000000000),
  (986623044046409838313429154501195200000000000000000000000000000000, 6559536553309752948137130125203827000000000000000000000000000000),
  (991975707765865612670511228948628800000000000000000000000000000000, 4271931305654963711921973801493406000000000000000000000000000000),
  (995393527151420149152911854131726100000000000000000000000000000000, 2664170574780983128723109964545489000000000000000000000000000000),
  (997479999117300806030071782333636500000000000000000000000000000000, 1584712009542710013306478825980508000000000000000000000000000000),
  (998692580232036069478299563312334700000000000000000000000000000000, 894867023877831795517905913289004300000000000000000000000000000),
  (999360165283690147629889641902965900000000000000000000000000000000, 477156805492321517344398923284501700000000000000000000000000000),
  (999706404406543450689057857373525700000000000000000000000000000000, 238802003164805518045987366273932600000000000000000000000000000),
  (999874520435781646636234580824772500000000000000000000000000000000, 111422093451581805881618834827099800000000000000000000000000000),
  (999950414155652540540097346208312000000000000000000000000000000000, 48110400818257501804090737436557500000000000000000000000000000),
  (999982027422243687185841612873923000000000000000000000000000000000, 19067838687274661963507641317585500000000000000000000000000000),
  (999994077559850063566243185279968900000000000000000000000000000000, 6875157093108070980722181739663298000000000000000000000000000),
  (999998242755066086121725038843464900000000000000000000000000000000, 2233281664248874935744136120171444000000000000000000000000000),
  (999999535475098883098619141606368200000000000000000000000000000000, 646621272217122980676491361423774500000000000000000000000000),
  (999999891857564257812907383618139200000000000000000000000000000000, 164943315811722983105026567588982500000000000000000000000000),
  (999999978108394637624498014571356400000000000000000000000000000000, 36597697091015365542592860414630500000000000000000000000000),
  (999999996199786167685113964059819400000000000000000000000000000000, 6965276351127229344567022367072935000000000000000000000000),
  (999999999442865190275690488329998900000000000000000000000000000000, 1119803453090701783654252726438799000000000000000000000000),
  (999999999932162819477384187620819100000000000000000000000000000000, 149548194351383298239507741963129200000000000000000000000),
  (999999999993264635035238453880648500000000000000000000000000000000, 16288213981792235733300696115353240000000000000000000000),
  (999999999999465560305792601603493200000000000000000000000000000000, 1417965699884165823938281744788542000000000000000000000),
  (999999999999966849469874398548059900000000000000000000000000000000, 96506927596533615695016372728638330000000000000000000),
  (999999999999998431030754337281946600000000000000000000000000000000, 5012125064675661750540858483827224000000000000000000),
  (999999999999999944827219494368343300000000000000000000000000000000, 193421051116879178111093997949844900000000000000000),
  (999999999999999998599923356197321800000000000000000000000000000000, 5386772091402886443484103162046567000000000000000),
  (999999999999999999975169209106290900000000000000000000000000000000, 104854551598693861756276768617510500000000000000),
  (999999999999999999999702846725643200000000000000000000000000000000, 1377258559023191650399216512006179000000000000),
  (999999999999999999999997691274675800000000000000000000000000000000, 11745205682598721126868024371742200000000000),
  (999999999999999999999999988836984900000000000000000000000000000000, 62335560341063017650072599949044970000000)]

/-- n = 80. quadrature_lib.cpp:8257-8336. -/
def b80 : List (Nat × Nat) := [
  (5942379015165562632205229498029608000000, 33202972600075997017617101041939840000000),
  (1235918761038664669376290622302951000000000, 6297039134223699068189538471560652000000000),
  (160599648472927318348313404991271100000000000, 746161742290430382795159277667246100000000000),
  (13592041619339397656311589976125790000000000000, 57587671633091424698635496433989570000000000000),
  (778179053115970239665222139527294600000000000000, 3006756460655628262410333560474796000000000000000),
  (31199531295765559059026949988544520000000000000000, 109941502520431686816720264266505100000000000000000),
  (904039153821215200451862215652251700000000000000000, 2905500504783983112797437108716616000000000000000000),
  (19484488446396839175475680777211030000000000000000000, 57118024237680762879439212483772110000000000000000000),
  (320661695582836674452512153970855400000000000000000000, 857468489869873631881659183371022900000000000000000000),
  (4127188275105024518984473285301609000000000000000000000, 10068298980301776994437266036071980000000000000000000000),
  (42461106503731831252953738636745560000000000000000000000, 94509729320085253907839148785257360000000000000000000000),
  (356211369655261045973984397849655100000000000000000000000, 723501816912456955489381900113496900000000000000000000000),
  (2481396195220156714805756676776746000000000000000000000000, 4599922869051167888843621367043703000000000000000000000000),
  (14593483521202802655067455556848280000000000000000000000000, 24696031597019479534411099683244220000000000000000000000000),
  (73564923726855793657777364577155080000000000000000000000000, 113674261246188875427941856520503800000000000000000000000000),
  (322280408326891706596839251136627300000000000000000000000000, 454861882674151020283063623119890800000000000000000000000000),
  (1242595447955758940961762935085637000000000000000000000000000, 1602458069238275625968337925261369000000000000000000000000000),
  (4265455865503579906483822477544405000000000000000000000000000, 5028299212286287381030164095122679000000000000000000000000000),
  (13173947764466020270481695272573320000000000000000000000000000, 14203429434046859644998460145094320000000000000000000000000000),
  (36962544988338043182691556060704400000000000000000000000000000, 36468995064154105077199162525824490000000000000000000000000000),
  (95043646837439566585991861452742080000000000000000000000000000, 85876934570841363511828779383955690000000000000000000000000000),
  (225781141175301055267402008582397800000000000000000000000000000, 186975473806989250248771051657296600000000000000000000000000000),
  (499155955673487439578318668665079600000000000000000000000000000, 379202574631728534024859586943815800000000000000000000000000000),
  (1033860949587596925150710853489995000000000000000000000000000000, 721213176094332572302164078979974500000000000000000000000000000),
  (2018305973103597986384715550134254000000000000000000000000000000, 1294199896923455020963218129424427000000000000000000000000000000),
  (3733993566214138547379735137626327000000000000000000000000000000, 2203129656862872523497816288135546000000000000000000000000000000),
  (6578632270533674760261244325175253000000000000000000000000000000, 3574803735249793305438030390260688000000000000000000000000000000),
  (11085288751726592835907287027429690000000000000000000000000000000, 5551711836886940522613672599583773000000000000000000000000000000),
  (17932906100907050591804916179292360000000000000000000000000000000, 8280774674199080384338726455588944000000000000000000000000000000),
  (27942721172329246133705639071530960000000000000000000000000000000, 11896325156413166429908048656624600000000000000000000000000000000),
  (42054709648806255418322097682279510000000000000000000000000000000, 16497239216552230956814299015889210000000000000000000000000000000),
  (61278590545821410092348554567481390000000000000000000000000000000, 22119216247566993398717044204328870000000000000000000000000000000),
  (86615745654535006865849285285625580000000000000000000000000000000, 28704969908027983397980498522206460000000000000000000000000000000),
  (118952296224181984771871672047746000000000000000000000000000000000, 36077402612252835581013821086399010000000000000000000000000000000),
  (158929839019824209396199630355425100000000000000000000000000000000, 43923131250294977309162839375717090000000000000000000000000000000),
  (206808455319204903294153258072427000000000000000000000000000000000, 51794923231214017322088728253898390000000000000000000000000000000),
  (262344786530622868770863181192399500000000000000000000000000000000, 59140324275379383480218651458994190000000000000000000000000000000),
  (324713180266963990210618946423091000000000000000000000000000000000, 65359007266754819898173155017546520000000000000000000000000000000),
  (392496667320774565011305404714131500000000000000000000000000000000, 69883411827021644061766524126091610000000000000000000000000000000),
  (463764551581624245453767698383431500000000000000000000000000000000, 72268259206420352514889503063117920000000000000000000000000000000),
  (536235448418375754546232301616568500000000000000000000000000000000, 72268259206420352514889503063117920000000000000000000000000000000),
  (607503332679225434988694595285868500000000000000000000000000000000, 69883411827021644061766524126091610000000000000000000000000000000),
  (675286819733036009789381053576909000000000000000000000000000000000, 65359007266754819898173155017546520000000000000000000000000000000),
  (737655213469377131229136818807600600000000000000000000000000000000, 59140324275379383480218651458994190000000000000000000000000000000),
  (793191544680795096705846741927573000000000000000000000000000000000, 51794923231214017322088728253898390000000000000000000000000000000),
  (841070160980175790603800369644574900000000000000000000000000000000, 43923131250294977309162839375717090000000000000000000000000000000),
  (881047703775818015228128327952254000000000000000000000000000000000, 36077402612252835581013821086399010000000000000000000000000000000),
  (913384254345464993134150714714374500000000000000000000000000000000, 28704969908027983397980498522206460000000000000000000000000000000),
  (938721409454178589907651445432518600000000000000000000000000000000, 22119216247566993398717044204328870000000000000000000000000000000),
  (957945290351193744581677902317720500000000000000000000000000000000, 16497239216552230956814299015889210000000000000000000000000000000),
  (972057278827670753866294360928469100000000000000000000000000000000, 11896325156413166429908048656624600000000000000000000000000000000),
  (982067093899092949408195083820707600000000000000000000000000000000, 8280774674199080384338726455588944000000000000000000000000000000),
  (988914711248273407164092712972570300000000000000000000000000000000, 5551711836886940522613672599583770000000000000000000000000000000),
  (993421367729466325239738755674824700000000000000000000000000000000, 3574803735249793305438030390260688000000000000000000000000000000),
  (996266006433785861452620264862373800000000000000000000000000000000, 2203129656862872523497816288135547000000000000000000000000000000),
  (997981694026896402013615284449865600000000000000000000000000000000, 1294199896923455020963218129424427000000000000000000000000000000),
  (998966139050412403074849289146510000000000000000000000000000000000, 721213176094332572302164078979974300000000000000000000000000000),
  (999500844044326512560421681331335000000000000000000000000000000000, 379202574631728534024859586943815800000000000000000000000000000),
  (999774218858824698944732597991417700000000000000000000000000000000, 186975473806989250248771051657296600000000000000000000000000000),
  (999904956353162560433414008138547200000000000000000000000000000000, 85876934570841363511828779383955690000000000000000000000000000),
  (999963037455011661956817308443939300000000000000000000000000000000, 36468995064154105077199162525824490000000000000000000000000000),
  (999986826052235533979729518304727500000000000000000000000000000000, 14203429434046859644998460145094340000000000000000000000000000),
  (999995734544134496420093516177522500000000000000000000000000000000, 5028299212286287381030164095122670000000000000000000000000000),
  (999998757404552044241059038237064900000000000000000000000000000000, 1602458069238275625968337925261369000000000000000000000000000),
  (999999677719591673108293403160748800000000000000000000000000000000, 454861882674151020283063623119890800000000000000000000000000),
  (999999926435076273144206342222635500000000000000000000000000000000, 113674261246188875427941856520503800000000000000000000000000),
  (999999985406516478797197344932544500000000000000000000000000000000, 24696031597019479534411099683244220000000000000000000000000),
  (999999997518603804779843285194243300000000000000000000000000000000, 4599922869051167888843621367043703000000000000000000000000),
  (999999999643788630344738954026015700000000000000000000000000000000, 723501816912456955489381900113496900000000000000000000000),
  (999999999957538893496268168747046400000000000000000000000000000000, 94509729320085253907839148785257360000000000000000000000),
  (999999999995872811724894975481015500000000000000000000000000000000, 10068298980301776994437266036071980000000000000000000000),
  (999999999999679338304417163325547400000000000000000000000000000000, 857468489869873631881659183371023200000000000000000000),
  (999999999999980515511553603160824500000000000000000000000000000000, 57118024237680762879439212483772110000000000000000000),
  (999999999999999095960846178784799600000000000000000000000000000000, 2905500504783983112797437108716616000000000000000000),
  (999999999999999968800468704234441000000000000000000000000000000000, 109941502520431686816720264266505100000000000000000),
  (999999999999999999221820946884029800000000000000000000000000000000, 3006756460655628262410333560474796000000000000000),
  (999999999999999999986407958380660500000000000000000000000000000000, 57587671633091424698635496433989210000000000000),
  (999999999999999999999839400351527000000000000000000000000000000000, 746161742290430382795159277667246100000000000),
  (999999999999999999999998764081239000000000000000000000000000000000, 6297039134223699068189538471560652000000000),
  (999999999999999999999999994057621000000000000000000000000000000000, 33202972600075997017617101041939860000000)]

/-- n = 81. quadrature_lib.cpp:8337-8417. -/
def b81 : List (Nat × Nat) := [
  (3167477751807704429981658399581071000000, 17708699326250382915283964337283770000000),
  (662417087346311868680017253500167300000000, 3380040187642553180561096569622508000000000),
  (86886287047254902063504453355043870000000000, 404641476349977622690068685966243500000000000),
  (7445917623465261011171385555563251000000000000, 31650465382288144969257599556462220000000000000),
  (432742054438443691897455163512335200000000000000, 1678998736221635591083390645709997000000000000000),
  (17646853539714706919179372742630930000000000000000, 62498264887874745325695021844835540000000000000000),
  (520867017920113786355348844389195300000000000000000, 1683956913880948296157205727378846000000000000000000),
  (11447895997664766612213771003664220000000000000000000, 33787967055420873061246278553194630000000000000000000),
  (192268675794882345026330200818731100000000000000000000, 518097844485025446013429897613423300000000000000000000),
  (2526628686229663836728011101430753000000000000000000000, 6216601624935463020553018331888102000000000000000000000),
  (26545904306486311668310060580607790000000000000000000000, 59644071569166000416068378017082870000000000000000000000),
  (227423725434586290868399176440314800000000000000000000000, 466684485304351940384059097355007300000000000000000000000),
  (1617605235228403962647678418996687000000000000000000000000, 3032141984980773099838461399756252000000000000000000000000),
  (9710625037313376677700894571548169000000000000000000000000, 16630271136503073440074462249838290000000000000000000000000),
  (49943824420683691326068684119181590000000000000000000000000, 78164907798983540814525599626138220000000000000000000000000),
  (223118647776842494856045943119583100000000000000000000000000, 319202830372580215695206267922774600000000000000000000000000),
  (876710390861025357081548328262033200000000000000000000000000, 1146924591829986645050752648073713000000000000000000000000000),
  (3064940793403857657936970605918089000000000000000000000000000, 3667955289973385107917482215297865000000000000000000000000000),
  (9633565750128493913937534777802879000000000000000000000000000, 10551658013646139758750871087518370000000000000000000000000000),
  (27486256919889936454672765818616150000000000000000000000000000, 27569390400879776327830100468770750000000000000000000000000000),
  (71815208720840788126155987140581940000000000000000000000000000, 66007584152835691733700119243655960000000000000000000000000000),
  (173209362544499062731076736291887300000000000000000000000000000, 145997817724865861526278433727706100000000000000000000000000000),
  (388472160785295155842932871628237200000000000000000000000000000, 300543150155882358533268847205328300000000000000000000000000000),
  (815604299300065083160851641493103500000000000000000000000000000, 579707721568668705333301147704423800000000000000000000000000000),
  (1612730964276118239126644001281308000000000000000000000000000000, 1054164288131504238991959199845081000000000000000000000000000000),
  (3019854762231850992206715059598773000000000000000000000000000000, 1817129197001659510869090978676555000000000000000000000000000000),
  (5381313113511886061882116477841976000000000000000000000000000000, 2983668230838457594724180358833565000000000000000000000000000000),
  (9165816316182768275141482976960888000000000000000000000000000000, 4686395163281248688571807948009686000000000000000000000000000000),
  (14980005754211596799888606172888870000000000000000000000000000000, 7066676566654313201653571983221100000000000000000000000000000000),
  (23570662797203076951048260779477140000000000000000000000000000000, 10260633241418847521770622148696010000000000000000000000000000000),
  (35810157979465794212287160751609930000000000000000000000000000000, 14379616156761996075839017078937770000000000000000000000000000000),
  (52659762033690467480457489863660880000000000000000000000000000000, 19485627625479333771393110453844680000000000000000000000000000000),
  (75106544822259633297119119513179290000000000000000000000000000000, 25563530822963591532489027076544040000000000000000000000000000000),
  (104072369007498840492085957613553300000000000000000000000000000000, 32493848707564491644974082196388010000000000000000000000000000000),
  (140298395200194106604814761440582900000000000000000000000000000000, 40032161022925114415006720936414940000000000000000000000000000000),
  (184215445728477141840856985690027700000000000000000000000000000000, 47802770423996097823157865922022630000000000000000000000000000000),
  (235818412604200767450315257988628300000000000000000000000000000000, 55314251063291396820536435433263070000000000000000000000000000000),
  (294569321782291671347496152587382600000000000000000000000000000000, 62001575809524176443060223241671100000000000000000000000000000000),
  (359355540446470333582239955683933600000000000000000000000000000000, 67293380984149249013716112113101380000000000000000000000000000000),
  (428524153656002106566079144516650400000000000000000000000000000000, 70694740640713310349532322500476270000000000000000000000000000000),
  (500000000000000000000000000000000000000000000000000000000000000000, 71868440580313087849829686478009640000000000000000000000000000000),
  (571475846343997893433920855483349600000000000000000000000000000000, 70694740640713310349532322500476270000000000000000000000000000000),
  (640644459553529666417760044316066400000000000000000000000000000000, 67293380984149249013716112113101380000000000000000000000000000000),
  (705430678217708328652503847412617300000000000000000000000000000000, 62001575809524176443060223241671100000000000000000000000000000000),
  (764181587395799232549684742011371700000000000000000000000000000000, 55314251063291396820536435433263070000000000000000000000000000000),
  (815784554271522858159143014309972400000000000000000000000000000000, 47802770423996097823157865922022630000000000000000000000000000000),
  (859701604799805893395185238559417100000000000000000000000000000000, 40032161022925114415006720936414940000000000000000000000000000000),
  (895927630992501159507914042386446600000000000000000000000000000000, 32493848707564491644974082196388030000000000000000000000000000000),
  (924893455177740366702880880486820700000000000000000000000000000000, 25563530822963591532489027076544040000000000000000000000000000000),
  (947340237966309532519542510136339100000000000000000000000000000000, 19485627625479333771393110453844680000000000000000000000000000000),
  (964189842020534205787712839248390200000000000000000000000000000000, 14379616156761996075839017078937770000000000000000000000000000000),
  (976429337202796923048951739220522800000000000000000000000000000000, 10260633241418847521770622148696010000000000000000000000000000000),
  (985019994245788403200111393827111100000000000000000000000000000000, 7066676566654313201653571983221100000000000000000000000000000000),
  (990834183683817231724858517023039100000000000000000000000000000000, 4686395163281248688571807948009686000000000000000000000000000000),
  (994618686886488113938117883522157900000000000000000000000000000000, 2983668230838457594724180358833565000000000000000000000000000000),
  (996980145237768149007793284940401300000000000000000000000000000000, 1817129197001659510869090978676554000000000000000000000000000000),
  (998387269035723881760873355998718600000000000000000000000000000000, 1054164288131504238991959199845081000000000000000000000000000000),
  (999184395700699934916839148358506800000000000000000000000000000000, 579707721568668705333301147704423800000000000000000000000000000),
  (999611527839214704844157067128371600000000000000000000000000000000, 300543150155882358533268847205328300000000000000000000000000000),
  (999826790637455500937268923263708100000000000000000000000000000000, 145997817724865861526278433727706100000000000000000000000000000),
  (999928184791279159211873844012859400000000000000000000000000000000, 66007584152835691733700119243655950000000000000000000000000000),
  (999972513743080110063545327234181300000000000000000000000000000000, 27569390400879776327830100468770790000000000000000000000000000),
  (999990366434249871506086062465222100000000000000000000000000000000, 10551658013646139758750871087518370000000000000000000000000000),
  (999996935059206596142342063029394000000000000000000000000000000000, 3667955289973385107917482215297865000000000000000000000000000),
  (999999123289609138974642918451671700000000000000000000000000000000, 1146924591829986645050752648073713000000000000000000000000000),
  (999999776881352223157505143954056900000000000000000000000000000000, 319202830372580215695206267922774600000000000000000000000000),
  (999999950056175579316308673931315800000000000000000000000000000000, 78164907798983540814525599626138220000000000000000000000000),
  (999999990289374962686623322299105500000000000000000000000000000000, 16630271136503073440074462249838290000000000000000000000000),
  (999999998382394764771596037352321700000000000000000000000000000000, 3032141984980773099838461399756260000000000000000000000000),
  (999999999772576274565413709131600800000000000000000000000000000000, 466684485304351940384059097355007300000000000000000000000),
  (999999999973454095693513688331689900000000000000000000000000000000, 59644071569166000416068378017082870000000000000000000000),
  (999999999997473371313770336163272100000000000000000000000000000000, 6216601624935463020553018331888102000000000000000000000),
  (999999999999807731324205117654973800000000000000000000000000000000, 518097844485025446013429897613423300000000000000000000),
  (999999999999988552104002335233387800000000000000000000000000000000, 33787967055420873061246278553194630000000000000000000),
  (999999999999999479132982079886213500000000000000000000000000000000, 1683956913880948296157205727378846000000000000000000),
  (999999999999999982353146460285293100000000000000000000000000000000, 62498264887874745325695021844835540000000000000000),
  (999999999999999999567257945561556200000000000000000000000000000000, 1678998736221635591083390645709997000000000000000),
  (999999999999999999992554082376534700000000000000000000000000000000, 31650465382288144969257599556462220000000000000),
  (999999999999999999999913113712952800000000000000000000000000000000, 404641476349977622690068685966243500000000000),
  (999999999999999999999999337582912600000000000000000000000000000000, 3380040187642553180561096569622508000000000),
  (999999999999999999999999996832522200000000000000000000000000000000, 17708699326250382915283964337283770000000)]

/-- n = 82. quadrature_lib.cpp:8418-8499. -/
def b82 : List (Nat × Nat) := [
  (1690565719425931082594670323352808000000, 9457057430934493424588823152174810000000),
  (355459026591436558458222207985389100000000, 1816393705398852366665196822234253000000000),
  (47053875511215507012019460171226130000000000, 219646059870648438192723110020262200000000000),
  (4082150824029248873636685915832564000000000000, 17407561899959031440295339003662720000000000000),
  (240769576432986106626242439183962000000000000000, 937966524517811156827344508870975700000000000000),
  (9983592152870279123150498398964296000000000000000, 35532723387190114968100784461935440000000000000000),
  (300082524634625096320698054930687700000000000000000, 975800850545796084262121934079914500000000000000000),
  (6723737495114475973599911389651637000000000000000000, 19977331714747221088397495218903540000000000000000000),
  (115211506078494981738256433272333200000000000000000000, 312796347825652574921943058925056800000000000000000000),
  (1545387873299976392532738210016185000000000000000000000, 3834261627653472787087416875339868000000000000000000000),
  (16576892367812705027752917257308200000000000000000000000, 37590048347873770240278401942267720000000000000000000000),
  (144998080965221270174858018836964000000000000000000000000, 300548060317975730612466578358101600000000000000000000000),
  (1052824997774102869249833168996770000000000000000000000000, 1995065939145969473676209493038923000000000000000000000000),
  (6450027288819793472182012953586448000000000000000000000000, 11176163519799499204090586646056360000000000000000000000000),
  (33841413524962099364938084201788720000000000000000000000000, 53629824416034312208097087204429200000000000000000000000000),
  (154146561600855477853854661750536100000000000000000000000000, 223477501431113400423722990927492600000000000000000000000000),
  (617205336221317796020315120737865100000000000000000000000000, 818859713425801602413020375522297000000000000000000000000000),
  (2197291384693845736930135469731435000000000000000000000000000, 2668772577182111886531570285440647000000000000000000000000000),
  (7028123373433954565726238833378212000000000000000000000000000, 7818122456547763646884536669682501000000000000000000000000000),
  (20390733052449533464106666571569820000000000000000000000000000, 20785747896827918205340061110320080000000000000000000000000000),
  (54133370117419297893405437169731290000000000000000000000000000, 50598505989062906019331585705882670000000000000000000000000000),
  (132559483000947590434682463679383600000000000000000000000000000, 113693478725159578831592402818140700000000000000000000000000000),
  (301610993663466424623782946107488300000000000000000000000000000, 237562868415703536364068862947523300000000000000000000000000000),
  (641910154026255448354495495563425300000000000000000000000000000, 464734269325606727789495350475467400000000000000000000000000000),
  (1285676735797395910507605893612200000000000000000000000000000000, 856409405342990101211211146826298300000000000000000000000000000),
  (2436758345810637066878204042449403000000000000000000000000000000, 1494898205629008689918789346814527000000000000000000000000000000),
  (4392101954886379495948945502271292000000000000000000000000000000, 2483909836199623513209236736741634000000000000000000000000000000),
  (7562057700368094288360873985087344000000000000000000000000000000, 3945776582827350738610908127983576000000000000000000000000000000),
  (12486012284677686122492743370875280000000000000000000000000000000, 6014754474312354048077092809368505000000000000000000000000000000),
  (19839049058484545265877130421792510000000000000000000000000000000, 8825670095423437048858560648103725000000000000000000000000000000),
  (30424716934394623187058252719687940000000000000000000000000000000, 12497449145259667487331223990455920000000000000000000000000000000),
  (45148776004097074367281426392446090000000000000000000000000000000, 17111628254289441604524958495449790000000000000000000000000000000),
  (64969365137156555043660886869211070000000000000000000000000000000, 22686994848331668896233933841053410000000000000000000000000000000),
  (90820938318689645960614302137033510000000000000000000000000000000, 29153102828480107635368316210089280000000000000000000000000000000),
  (123513047020743270070652272842547000000000000000000000000000000000, 36327411081919198779731396334953020000000000000000000000000000000),
  (163610764506880913900155505370182400000000000000000000000000000000, 43902642076035430736236161850071640000000000000000000000000000000),
  (211310661603070613427433478150087300000000000000000000000000000000, 51451714314553373911546975450972570000000000000000000000000000000),
  (266333098799151373245287667978034400000000000000000000000000000000, 58456155203157253384197235893566590000000000000000000000000000000),
  (327855569013100385791408865684712200000000000000000000000000000000, 64359526619107408790559970747485880000000000000000000000000000000),
  (394510054101815885813878856516872600000000000000000000000000000000, 68640477312496739914631882261135660000000000000000000000000000000),
  (464458139952653231584428691262545400000000000000000000000000000000, 70892508470673966020012314381219880000000000000000000000000000000),
  (535541860047346768415571308737454600000000000000000000000000000000, 70892508470673966020012314381219880000000000000000000000000000000),
  (605489945898184114186121143483127400000000000000000000000000000000, 68640477312496739914631882261135660000000000000000000000000000000),
  (672144430986899614208591134315287900000000000000000000000000000000, 64359526619107408790559970747485880000000000000000000000000000000),
  (733666901200848626754712332021965600000000000000000000000000000000, 58456155203157253384197235893566590000000000000000000000000000000),
  (788689338396929386572566521849912700000000000000000000000000000000, 51451714314553373911546975450972570000000000000000000000000000000),
  (836389235493119086099844494629817500000000000000000000000000000000, 43902642076035430736236161850071650000000000000000000000000000000),
  (876486952979256729929347727157453100000000000000000000000000000000, 36327411081919198779731396334953000000000000000000000000000000000),
  (909179061681310354039385697862966400000000000000000000000000000000, 29153102828480107635368316210089280000000000000000000000000000000),
  (935030634862843444956339113130789000000000000000000000000000000000, 22686994848331668896233933841053420000000000000000000000000000000),
  (954851223995902925632718573607553800000000000000000000000000000000, 17111628254289441604524958495449790000000000000000000000000000000),
  (969575283065605376812941747280312100000000000000000000000000000000, 12497449145259667487331223990455920000000000000000000000000000000),
  (980160950941515454734122869578207600000000000000000000000000000000, 8825670095423437048858560648103725000000000000000000000000000000),
  (987513987715322313877507256629124700000000000000000000000000000000, 6014754474312354048077092809368505000000000000000000000000000000),
  (992437942299631905711639126014912700000000000000000000000000000000, 3945776582827350738610908127983576000000000000000000000000000000),
  (995607898045113620504051054497728800000000000000000000000000000000, 2483909836199623513209236736741634000000000000000000000000000000),
  (997563241654189362933121795957550600000000000000000000000000000000, 1494898205629008689918789346814527000000000000000000000000000000),
  (998714323264202604089492394106387900000000000000000000000000000000, 856409405342990101211211146826298300000000000000000000000000000),
  (999358089845973744551645504504436600000000000000000000000000000000, 464734269325606727789495350475467400000000000000000000000000000),
  (999698389006336533575376217053892500000000000000000000000000000000, 237562868415703536364068862947523300000000000000000000000000000),
  (999867440516999052409565317536320600000000000000000000000000000000, 113693478725159578831592402818140800000000000000000000000000000),
  (999945866629882580702106594562830200000000000000000000000000000000, 50598505989062906019331585705882670000000000000000000000000000),
  (999979609266947550466535893333428600000000000000000000000000000000, 20785747896827918205340061110320050000000000000000000000000000),
  (999992971876626566045434273761166600000000000000000000000000000000, 7818122456547763646884536669682512000000000000000000000000000),
  (999997802708615306154263069864530300000000000000000000000000000000, 2668772577182111886531570285440647000000000000000000000000000),
  (999999382794663778682203979684879200000000000000000000000000000000, 818859713425801602413020375522297000000000000000000000000000),
  (999999845853438399144522146145338200000000000000000000000000000000, 223477501431113400423722990927492600000000000000000000000000),
  (999999966158586475037900635061915800000000000000000000000000000000, 53629824416034312208097087204429200000000000000000000000000),
  (999999993549972711180206527817987100000000000000000000000000000000, 11176163519799499204090586646056360000000000000000000000000),
  (999999998947175002225897130750166900000000000000000000000000000000, 1995065939145969473676209493038923000000000000000000000000),
  (999999999855001919034778729825142100000000000000000000000000000000, 300548060317975730612466578358100700000000000000000000000),
  (999999999983423107632187294972247100000000000000000000000000000000, 37590048347873770240278401942267710000000000000000000000),
  (999999999998454612126700023607467300000000000000000000000000000000, 3834261627653472787087416875339866000000000000000000000),
  (999999999999884788493921505018261900000000000000000000000000000000, 312796347825652574921943058925056800000000000000000000),
  (999999999999993276262504885524026400000000000000000000000000000000, 19977331714747221088397495218903540000000000000000000),
  (999999999999999699917475365374903700000000000000000000000000000000, 975800850545796084262121934079914500000000000000000),
  (999999999999999990016407847129721000000000000000000000000000000000, 35532723387190114968100784461935440000000000000000),
  (999999999999999999759230423567013900000000000000000000000000000000, 937966524517811156827344508870975900000000000000),
  (999999999999999999995917849175970800000000000000000000000000000000, 17407561899959031440295339003662720000000000000),
  (999999999999999999999952946124488700000000000000000000000000000000, 219646059870648438192723110020262200000000000),
  (999999999999999999999999644540973400000000000000000000000000000000, 1816393705398852366665196822234253000000000),
  (999999999999999999999999998309434300000000000000000000000000000000, 9457057430934493424588823152174810000000)]

/-- n = 83. quadrature_lib.cpp:8500-8582. -/
def b83 : List (Nat × Nat) := [
  (903455845254586727153459371827464900000, 5056806881820274664505770260227766000000),
  (190966262704684577865493087726205400000000, 977223447102429064756151725965698600000000),
  (25507746567237183134673000249696610000000000, 119340478587674028966945804160542400000000000),
  (2239726698684512196067335570582370000000000000, 9580803020940404425410470345398188000000000000),
  (134028763627523660830926742240933300000000000000, 524217301817465653621461544347207500000000000000),
  (5649510130830531891686845975215141000000000000000, 20204533652190171996618703583437530000000000000000),
  (172876456586673856907138652940195200000000000000000, 565353925880572728274535299016139900000000000000000),
  (3947790288251208618410596025939048000000000000000000, 11806230337027097998159890236543570000000000000000000),
  (68995592734849533996875531627348540000000000000000000, 188704541027273179635016788891842600000000000000000000),
  (944402070860410938763066907637681000000000000000000000, 2362430635137932419024777503544722000000000000000000000),
  (10340087702147221263831404252401390000000000000000000000, 23659855714371085970790818544363150000000000000000000000),
  (92321888313813286390126020402347010000000000000000000000, 193255377475259837021097349344640200000000000000000000000),
  (684172146940412557847123676400717500000000000000000000000, 1310373280146683282649385629574981000000000000000000000000),
  (4276819365160032206981403893173563000000000000000000000000, 7495996169685175153031046309128298000000000000000000000000),
  (22887049559330415266853211391302850000000000000000000000000, 36717060628104137669238164177683580000000000000000000000000),
  (106278751815236392305185471507238700000000000000000000000000, 156099888960494209760904787045165200000000000000000000000000),
  (433579025899231206768479398662430500000000000000000000000000, 583219072434648252058458478562679100000000000000000000000000),
  (1571734106148684846452216075412995000000000000000000000000000, 1936884435862510569848323011696538000000000000000000000000000),
  (5115504521656412843267483316218163000000000000000000000000000, 5777726618345374953565153629592544000000000000000000000000000),
  (15091332559839566449801224684143260000000000000000000000000000, 15629890305231414313573269258336150000000000000000000000000000),
  (40708138503579152143744271791475570000000000000000000000000000, 38683230187716339594451569535357160000000000000000000000000000),
  (101208357054338554884567846535625000000000000000000000000000000, 88300835950667249779429279194086770000000000000000000000000000),
  (233618215893954344519272721654363900000000000000000000000000000, 187282541547649122392817764998423000000000000000000000000000000),
  (504026690997080495421189355975840400000000000000000000000000000, 371586724050105303594009844530820600000000000000000000000000000),
  (1022593031315256356441473178309054000000000000000000000000000000, 693953449847420802653159500551017800000000000000000000000000000),
  (1961818532204007500606208817725561000000000000000000000000000000, 1226672045346657695799541417485669000000000000000000000000000000),
  (3576802075167373463514307295847654000000000000000000000000000000, 2062634885588761576802995390916246000000000000000000000000000000),
  (6225329536189171090770290725921979000000000000000000000000000000, 3313809429844795423539449972707456000000000000000000000000000000),
  (10384799762965393073330435885206410000000000000000000000000000000, 5106308795522960114552768608281017000000000000000000000000000000),
  (16662211658274734961417840753631290000000000000000000000000000000, 7571333176583481231200303942603432000000000000000000000000000000),
  (25792789290845867212324134097608190000000000000000000000000000000, 10831437933153055273044158655171230000000000000000000000000000000),
  (38622452014698710394299969663420940000000000000000000000000000000, 14981981653676837413387299088561410000000000000000000000000000000),
  (56069539456782885799595360758193110000000000000000000000000000000, 20068382761676525376345411665522050000000000000000000000000000000),
  (79062423986978999143904218003801240000000000000000000000000000000, 26061088510271497802006160869670280000000000000000000000000000000),
  (108452383706200658008521541933227200000000000000000000000000000000, 32831891727350817032655345270279410000000000000000000000000000000),
  (144905681122805182321206785706641700000000000000000000000000000000, 40137074595728473393843110774519530000000000000000000000000000000),
  (188784981383974693035369486990830600000000000000000000000000000000, 47614099325292306178013774453056100000000000000000000000000000000),
  (240036964652977902443047755696633200000000000000000000000000000000, 54798217644050340103470534194688360000000000000000000000000000000),
  (298108179297103277216689254020444500000000000000000000000000000000, 61162553737636122596326095981053700000000000000000000000000000000),
  (361912205860203219788905779039215800000000000000000000000000000000, 66179761057879588209479571332671840000000000000000000000000000000),
  (429865854497856849157487535867420300000000000000000000000000000000, 69396372615222851176703332032288440000000000000000000000000000000),
  (500000000000000000000000000000000000000000000000000000000000000000, 70504887520723395036020502630517190000000000000000000000000000000),
  (570134145502143150842512464132579800000000000000000000000000000000, 69396372615222851176703332032288440000000000000000000000000000000),
  (638087794139796780211094220960784300000000000000000000000000000000, 66179761057879588209479571332671840000000000000000000000000000000),
  (701891820702896722783310745979555500000000000000000000000000000000, 61162553737636122596326095981053700000000000000000000000000000000),
  (759963035347022097556952244303366800000000000000000000000000000000, 54798217644050340103470534194688360000000000000000000000000000000),
  (811215018616025306964630513009169400000000000000000000000000000000, 47614099325292306178013774453056100000000000000000000000000000000),
  (855094318877194817678793214293358400000000000000000000000000000000, 40137074595728473393843110774519540000000000000000000000000000000),
  (891547616293799341991478458066772700000000000000000000000000000000, 32831891727350817032655345270279410000000000000000000000000000000),
  (920937576013021000856095781996198700000000000000000000000000000000, 26061088510271497802006160869670280000000000000000000000000000000),
  (943930460543217114200404639241806800000000000000000000000000000000, 20068382761676525376345411665522050000000000000000000000000000000),
  (961377547985301289605700030336579000000000000000000000000000000000, 14981981653676837413387299088561410000000000000000000000000000000),
  (974207210709154132787675865902391800000000000000000000000000000000, 10831437933153055273044158655171230000000000000000000000000000000),
  (983337788341725265038582159246368700000000000000000000000000000000, 7571333176583481231200303942603432000000000000000000000000000000),
  (989615200237034606926669564114793500000000000000000000000000000000, 5106308795522960114552768608281017000000000000000000000000000000),
  (993774670463810828909229709274078000000000000000000000000000000000, 3313809429844795423539449972707455000000000000000000000000000000),
  (996423197924832626536485692704152300000000000000000000000000000000, 2062634885588761576802995390916248000000000000000000000000000000),
  (998038181467795992499393791182274500000000000000000000000000000000, 1226672045346657695799541417485669000000000000000000000000000000),
  (998977406968684743643558526821691000000000000000000000000000000000, 693953449847420802653159500551017900000000000000000000000000000),
  (999495973309002919504578810644024300000000000000000000000000000000, 371586724050105303594009844530820600000000000000000000000000000),
  (999766381784106045655480727278345700000000000000000000000000000000, 187282541547649122392817764998423000000000000000000000000000000),
  (999898791642945661445115432153464400000000000000000000000000000000, 88300835950667249779429279194086770000000000000000000000000000),
  (999959291861496420847856255728208500000000000000000000000000000000, 38683230187716339594451569535357160000000000000000000000000000),
  (999984908667440160433550198775315800000000000000000000000000000000, 15629890305231414313573269258336150000000000000000000000000000),
  (999994884495478343587156732516683800000000000000000000000000000000, 5777726618345374953565153629592544000000000000000000000000000),
  (999998428265893851315153547783924700000000000000000000000000000000, 1936884435862510569848323011696538000000000000000000000000000),
  (999999566420974100768793231520601400000000000000000000000000000000, 583219072434648252058458478562679100000000000000000000000000),
  (999999893721248184763607694814528500000000000000000000000000000000, 156099888960494209760904787045165200000000000000000000000000),
  (999999977112950440669584733146788600000000000000000000000000000000, 36717060628104137669238164177683580000000000000000000000000),
  (999999995723180634839967793018596000000000000000000000000000000000, 7495996169685175153031046309128298000000000000000000000000),
  (999999999315827853059587442152876300000000000000000000000000000000, 1310373280146683282649385629574985000000000000000000000000),
  (999999999907678111686186713609874000000000000000000000000000000000, 193255377475259837021097349344640200000000000000000000000),
  (999999999989659912297852778736168700000000000000000000000000000000, 23659855714371085970790818544363150000000000000000000000),
  (999999999999055597929139589061236900000000000000000000000000000000, 2362430635137932419024777503544723000000000000000000000),
  (999999999999931004407265150466003100000000000000000000000000000000, 188704541027273179635016788891842600000000000000000000),
  (999999999999996052209711748791381600000000000000000000000000000000, 11806230337027097998159890236543570000000000000000000),
  (999999999999999827123543413326143100000000000000000000000000000000, 565353925880572728274535299016139900000000000000000),
  (999999999999999994350489869169468100000000000000000000000000000000, 20204533652190171996618703583437530000000000000000),
  (999999999999999999865971236372476400000000000000000000000000000000, 524217301817465653621461544347207500000000000000),
  (999999999999999999997760273301315500000000000000000000000000000000, 9580803020940404425410470345398188000000000000),
  (999999999999999999999974492253432800000000000000000000000000000000, 119340478587674028966945804160542400000000000),
  (999999999999999999999999809033737300000000000000000000000000000000, 977223447102429064756151725965698600000000),
  (999999999999999999999999999096544100000000000000000000000000000000, 5056806881820274664505770260227766000000)]

/-- n = 84. quadrature_lib.cpp:8583-8666. -/
def b84 : List (Nat × Nat) := [
  (483425514944059979861248414855459400000, 2707317821544924867779628053272517000000),
  (102713061748160900864691125435146600000000, 526340526298060919826826135710145200000000),
  (13841285586206392124542485399401510000000000, 64902176585673260360976867532047060000000000),
  (1229798669210649702156186959134853000000000000, 5276801679519497365154135391108188000000000000),
  (74648164459817662893350110832109990000000000000, 293105796051238564689866161141789200000000000000),
  (3197738883124228550355410385701599000000000000000, 11490375567220130907364996716337370000000000000000),
  (99590758705783657603754284317546600000000000000000, 327504322398102795683345876618302800000000000000000),
  (2317208351878913362460777686870274000000000000000000, 6974204901195427302969940895855983000000000000000000),
  (41294942635944988313699499628983950000000000000000000, 113759526879241790139587244914275100000000000000000000),
  (576651768417561291637394237976793200000000000000000000, 1454123342806126715533850372556171000000000000000000000),
  (6442826728122619969157114151038997000000000000000000000, 14873152949082512552275943332989130000000000000000000000),
  (58705659036945490843917382871985960000000000000000000000, 124078338004545213970704576919980700000000000000000000000),
  (443933576115948852367760074819108000000000000000000000000, 859178821900352333794140344823770600000000000000000000000),
  (2831024476767511545387464704580641000000000000000000000000, 5017998353909548815711404699339077000000000000000000000000),
  (15449849639929931952243539105664670000000000000000000000000, 25085225217206391975259438881323300000000000000000000000000),
  (73129393043030285140479518073213260000000000000000000000000, 108791382575313983227176516030713100000000000000000000000000),
  (303941246131549712374915613822787600000000000000000000000000, 414402437916954620548855574817429200000000000000000000000000),
  (1121794098572768048637745623929354000000000000000000000000000, 1402233231145749588076357041069465000000000000000000000000000),
  (3714923868875081761441698550444854000000000000000000000000000, 4258951346144321470163389012690145000000000000000000000000000),
  (11143302719649678428800777895559270000000000000000000000000000, 11722350253791224114187352850798930000000000000000000000000000),
  (30540585137480122830820961549732150000000000000000000000000000, 29496041171187225251197257588144630000000000000000000000000000),
  (77090115096006646361615624771060960000000000000000000000000000, 68398555253259571141226479249616810000000000000000000000000000),
  (180529166283474090683666683077319500000000000000000000000000000, 147256337805341292688513333303492700000000000000000000000000000),
  (394843248051443071907971292498309700000000000000000000000000000, 296336518195890781820432887288139500000000000000000000000000000),
  (811486476560820667857272439305113000000000000000000000000000000, 560872518535021043295502496312807000000000000000000000000000000),
  (1575908280355915078083579580512841000000000000000000000000000000, 1004029011623073649646869636227425000000000000000000000000000000),
  (2906443767806292616112357573519975000000000000000000000000000000, 1708529613003802618237824617633846000000000000000000000000000000),
  (5113825139519695763403000375805319000000000000000000000000000000, 2776137377055762867700469499090651000000000000000000000000000000),
  (8618772668677035854254116444751320000000000000000000000000000000, 4324208075444679094178630412236028000000000000000000000000000000),
  (13964375123067787326141549722818130000000000000000000000000000000, 6478605312875545137803298453478007000000000000000000000000000000),
  (21819315337725512886853393945495490000000000000000000000000000000, 9362395236298315921503342162212369000000000000000000000000000000),
  (32967534796072984671971210761972120000000000000000000000000000000, 13080014661430536398859824897216990000000000000000000000000000000),
  (48279876669939785144115837362554190000000000000000000000000000000, 17697170808920868619814757648310360000000000000000000000000000000),
  (68663960250140270414547077243869970000000000000000000000000000000, 23217719959375339250738726840087770000000000000000000000000000000),
  (94990476138914013842235210801915150000000000000000000000000000000, 29560219826360182880688597011335360000000000000000000000000000000),
  (127997637798095627534014254636332300000000000000000000000000000000, 36538566028522462052642633955522940000000000000000000000000000000),
  (168180722470310800959505928187234800000000000000000000000000000000, 43852596222172554516722227330402330000000000000000000000000000000),
  (215679852679234663332264486724449400000000000000000000000000000000, 51094960377609207550187259406110220000000000000000000000000000000),
  (270184892973526020428551404882217000000000000000000000000000000000, 57779017099482312343863409605274920000000000000000000000000000000),
  (330879302287135516189266057425481100000000000000000000000000000000, 63388518235126486514920406393729690000000000000000000000000000000),
  (396442656252249929999435481598669400000000000000000000000000000000, 67443836590761461581324209418604050000000000000000000000000000000),
  (465123076439223327139794854143343500000000000000000000000000000000, 69573177761396055185541027628734140000000000000000000000000000000),
  (534876923560776672860205145856656600000000000000000000000000000000, 69573177761396055185541027628734140000000000000000000000000000000),
  (603557343747750070000564518401330500000000000000000000000000000000, 67443836590761461581324209418604050000000000000000000000000000000),
  (669120697712864483810733942574518900000000000000000000000000000000, 63388518235126486514920406393729690000000000000000000000000000000),
  (729815107026473979571448595117783000000000000000000000000000000000, 57779017099482312343863409605274920000000000000000000000000000000),
  (784320147320765336667735513275550700000000000000000000000000000000, 51094960377609207550187259406110220000000000000000000000000000000),
  (831819277529689199040494071812765200000000000000000000000000000000, 43852596222172554516722227330402330000000000000000000000000000000),
  (872002362201904372465985745363667700000000000000000000000000000000, 36538566028522462052642633955522930000000000000000000000000000000),
  (905009523861085986157764789198084900000000000000000000000000000000, 29560219826360182880688597011335360000000000000000000000000000000),
  (931336039749859729585452922756130100000000000000000000000000000000, 23217719959375339250738726840087770000000000000000000000000000000),
  (951720123330060214855884162637445800000000000000000000000000000000, 17697170808920868619814757648310360000000000000000000000000000000),
  (967032465203927015328028789238027900000000000000000000000000000000, 13080014661430536398859824897216990000000000000000000000000000000),
  (978180684662274487113146606054504500000000000000000000000000000000, 9362395236298315921503342162212370000000000000000000000000000000),
  (986035624876932212673858450277181900000000000000000000000000000000, 6478605312875545137803298453478007000000000000000000000000000000),
  (991381227331322964145745883555248700000000000000000000000000000000, 4324208075444679094178630412236028000000000000000000000000000000),
  (994886174860480304236596999624194700000000000000000000000000000000, 2776137377055762867700469499090649000000000000000000000000000000),
  (997093556232193707383887642426480100000000000000000000000000000000, 1708529613003802618237824617633844000000000000000000000000000000),
  (998424091719644084921916420419487200000000000000000000000000000000, 1004029011623073649646869636227425000000000000000000000000000000),
  (999188513523439179332142727560694900000000000000000000000000000000, 560872518535021043295502496312807000000000000000000000000000000),
  (999605156751948556928092028707501600000000000000000000000000000000, 296336518195890781820432887288139500000000000000000000000000000),
  (999819470833716525909316333316922600000000000000000000000000000000, 147256337805341292688513333303492700000000000000000000000000000),
  (999922909884903993353638384375228900000000000000000000000000000000, 68398555253259571141226479249616800000000000000000000000000000),
  (999969459414862519877169179038450300000000000000000000000000000000, 29496041171187225251197257588144680000000000000000000000000000),
  (999988856697280350321571199222104500000000000000000000000000000000, 11722350253791224114187352850798940000000000000000000000000000),
  (999996285076131124918238558301449500000000000000000000000000000000, 4258951346144321470163389012690145000000000000000000000000000),
  (999998878205901427231951362254376200000000000000000000000000000000, 1402233231145749588076357041069465000000000000000000000000000),
  (999999696058753868450287625084386100000000000000000000000000000000, 414402437916954620548855574817429200000000000000000000000000),
  (999999926870606956969714859520481900000000000000000000000000000000, 108791382575313983227176516030713100000000000000000000000000),
  (999999984550150360070068047756460900000000000000000000000000000000, 25085225217206391975259438881323300000000000000000000000000),
  (999999997168975523232488454612535300000000000000000000000000000000, 5017998353909548815711404699339062000000000000000000000000),
  (999999999556066423884051147632239800000000000000000000000000000000, 859178821900352333794140344823770600000000000000000000000),
  (999999999941294340963054509156082600000000000000000000000000000000, 124078338004545213970704576919980700000000000000000000000),
  (999999999993557173271877380030842900000000000000000000000000000000, 14873152949082512552275943332989130000000000000000000000),
  (999999999999423348231582438708362600000000000000000000000000000000, 1454123342806126715533850372556171000000000000000000000),
  (999999999999958705057364055011686400000000000000000000000000000000, 113759526879241790139587244914275100000000000000000000),
  (999999999999997682791648121086637500000000000000000000000000000000, 6974204901195427302969940895855983000000000000000000),
  (999999999999999900409241294216342300000000000000000000000000000000, 327504322398102795683345876618302800000000000000000),
  (999999999999999996802261116875771500000000000000000000000000000000, 11490375567220130907364996716337370000000000000000),
  (999999999999999999925351835540182400000000000000000000000000000000, 293105796051238564689866161141789200000000000000),
  (999999999999999999998770201330789300000000000000000000000000000000, 5276801679519497365154135391108220000000000000),
  (999999999999999999999986158714413900000000000000000000000000000000, 64902176585673260360976867532047070000000000),
  (999999999999999999999999897286938200000000000000000000000000000000, 526340526298060919826826135710145200000000),
  (999999999999999999999999999516574400000000000000000000000000000000, 2707317821544924867779628053272517000000)]

/-- n = 85. quadrature_lib.cpp:8667-8751. -/
def b85 : List (Nat × Nat) := [
  (258995118084303526763851597399623100000, 1451230603951000450693537587700208000000),
  (55308215320299350963943165764217570000000, 283806419339907347987601775479273100000000),
  (7518022141023226042096005151797156000000000, 35329193471172692922379649163844710000000000),
  (675777695141218576894642001484725900000000000, 2908327130861569891571272282173895000000000000),
  (41597350731143174370083243424523060000000000000, 163956384377400941584994766145790100000000000000),
  (1810452178452317670179710267669177000000000000000, 6535662915983283786232274653687822000000000000000),
  (57371564969233502746809376998252000000000000000000, 189696395956973587941974905092302700000000000000000),
  (1359730466828009923070208937463973000000000000000000, 4118117107161034990559333521471693000000000000000000),
  (24702095879646746122376225152483810000000000000000000, 68531679733748794365218929696323190000000000000000000),
  (351820402757432838916486172974185700000000000000000000, 894177928842786258831709379314405000000000000000000000),
  (4010282014435935192658157915465661000000000000000000000, 9338202219144245820331549258686704000000000000000000000),
  (37282458384112627755992224823857620000000000000000000000, 79547418461009694057427211498709830000000000000000000000),
  (287628128035416383970599248744458500000000000000000000000, 562396964358096699052572260347324300000000000000000000000),
  (1870887268038008857340561132296125000000000000000000000000, 3352872363535903079789706463010892000000000000000000000000),
  (10410460721643067102294440959042370000000000000000000000000, 17103214934030394269995487916177340000000000000000000000000),
  (50221348056339601268210856332611340000000000000000000000000, 75653754275190199810221841519950370000000000000000000000000),
  (212623491959953176953025168336863400000000000000000000000000, 293766128775398825735175169872114100000000000000000000000000),
  (798925897530451887543955683675282500000000000000000000000000, 1012699915134279927388747331622957000000000000000000000000000),
  (2691777837991951069845467840612591000000000000000000000000000, 3131539176784179797858349316840808000000000000000000000000000),
  (8209297067325653800809367811420689000000000000000000000000000, 8769173733000929578445643122320881000000000000000000000000000),
  (22859457462098767127684348477624830000000000000000000000000000, 22432392306232651173327375144417880000000000000000000000000000),
  (58582590018378360313795869166468680000000000000000000000000000, 52843899579144023493176174608317450000000000000000000000000000),
  (139180463795198108080899828742149900000000000000000000000000000, 115483457481030213126165641701197500000000000000000000000000000),
  (308599565568756434029859547659015900000000000000000000000000000, 235716115945262571209290318346639400000000000000000000000000000),
  (642500471973930867283905137293026000000000000000000000000000000, 452159568952400518440798624893025400000000000000000000000000000),
  (1263090247427920582813462698556053000000000000000000000000000000, 819736214846704186750297408677057800000000000000000000000000000),
  (2356563457275962676067245243835019000000000000000000000000000000, 1411715456030093093486881706728534000000000000000000000000000000),
  (4191768385379012537520998169320271000000000000000000000000000000, 2319996191789218945570243742644585000000000000000000000000000000),
  (7137966525040640116607759417589052000000000000000000000000000000, 3652891199662658544556138443634266000000000000000000000000000000),
  (11678838366625498076365112639951950000000000000000000000000000000, 5529726949756438273767331199592079000000000000000000000000000000),
  (18419243622971645914325307702190420000000000000000000000000000000, 8071665197681254539425199694996654000000000000000000000000000000),
  (28080733693487764678962816854718640000000000000000000000000000000, 11388343805468124098681561419055250000000000000000000000000000000),
  (41481589932620260490251534761528470000000000000000000000000000000, 15560337733738136477991516531816770000000000000000000000000000000),
  (59497503384158162307412588244907820000000000000000000000000000000, 20618190853116007087852019259411500000000000000000000000000000000),
  (83000314251648099588882908964212360000000000000000000000000000000, 26519943897214983069234008963816710000000000000000000000000000000),
  (112774895562246283369005249335804100000000000000000000000000000000, 33130604113162256643474448904415880000000000000000000000000000000),
  (149418496014381374120007674514067700000000000000000000000000000000, 40208528684987798902346535990943170000000000000000000000000000000),
  (193232362710534582337251005254012600000000000000000000000000000000, 47404589757084182353340270472079160000000000000000000000000000000),
  (244121209271518018345966155426415800000000000000000000000000000000, 54279433322495831390949300027689670000000000000000000000000000000),
  (301520259214836768368420385221780500000000000000000000000000000000, 60341464277467221967189281400955450000000000000000000000000000000),
  (364369964234738114014800167337852800000000000000000000000000000000, 65103355872209411038104431472850300000000000000000000000000000000),
  (431153337601778039390279603386006400000000000000000000000000000000, 68148926861064944866326365423263050000000000000000000000000000000),
  (500000000000000000000000000000000000000000000000000000000000000000, 69197220473831575671982575891971750000000000000000000000000000000),
  (568846662398221960609720396613993600000000000000000000000000000000, 68148926861064944866326365423263050000000000000000000000000000000),
  (635630035765261885985199832662147100000000000000000000000000000000, 65103355872209411038104431472850300000000000000000000000000000000),
  (698479740785163231631579614778219500000000000000000000000000000000, 60341464277467221967189281400955450000000000000000000000000000000),
  (755878790728481981654033844573584200000000000000000000000000000000, 54279433322495831390949300027689670000000000000000000000000000000),
  (806767637289465417662748994745987300000000000000000000000000000000, 47404589757084182353340270472079160000000000000000000000000000000),
  (850581503985618625879992325485932100000000000000000000000000000000, 40208528684987798902346535990943190000000000000000000000000000000),
  (887225104437753716630994750664195900000000000000000000000000000000, 33130604113162256643474448904415880000000000000000000000000000000),
  (916999685748351900411117091035787600000000000000000000000000000000, 26519943897214983069234008963816710000000000000000000000000000000),
  (940502496615841837692587411755092200000000000000000000000000000000, 20618190853116007087852019259411500000000000000000000000000000000),
  (958518410067379739509748465238471600000000000000000000000000000000, 15560337733738136477991516531816770000000000000000000000000000000),
  (971919266306512235321037183145281400000000000000000000000000000000, 11388343805468124098681561419055250000000000000000000000000000000),
  (981580756377028354085674692297809500000000000000000000000000000000, 8071665197681254539425199694996654000000000000000000000000000000),
  (988321161633374501923634887360048000000000000000000000000000000000, 5529726949756438273767331199592079000000000000000000000000000000),
  (992862033474959359883392240582411000000000000000000000000000000000, 3652891199662658544556138443634265000000000000000000000000000000),
  (995808231614620987462479001830679800000000000000000000000000000000, 2319996191789218945570243742644585000000000000000000000000000000),
  (997643436542724037323932754756165000000000000000000000000000000000, 1411715456030093093486881706728534000000000000000000000000000000),
  (998736909752572079417186537301443900000000000000000000000000000000, 819736214846704186750297408677057800000000000000000000000000000),
  (999357499528026069132716094862707000000000000000000000000000000000, 452159568952400518440798624893025400000000000000000000000000000),
  (999691400434431243565970140452341000000000000000000000000000000000, 235716115945262571209290318346639400000000000000000000000000000),
  (999860819536204801891919100171258000000000000000000000000000000000, 115483457481030213126165641701197500000000000000000000000000000),
  (999941417409981621639686204130833500000000000000000000000000000000, 52843899579144023493176174608317450000000000000000000000000000),
  (999977140542537901232872315651522400000000000000000000000000000000, 22432392306232651173327375144417880000000000000000000000000000),
  (999991790702932674346199190632188600000000000000000000000000000000, 8769173733000929578445643122320881000000000000000000000000000),
  (999997308222162008048930154532159400000000000000000000000000000000, 3131539176784179797858349316840808000000000000000000000000000),
  (999999201074102469548112456044316200000000000000000000000000000000, 1012699915134279927388747331622957000000000000000000000000000),
  (999999787376508040046823046974831700000000000000000000000000000000, 293766128775398825735175169872114100000000000000000000000000),
  (999999949778651943660398731789143700000000000000000000000000000000, 75653754275190199810221841519950370000000000000000000000000),
  (999999989589539278356932897705559000000000000000000000000000000000, 17103214934030394269995487916177340000000000000000000000000),
  (999999998129112731961991142659438900000000000000000000000000000000, 3352872363535903079789706463010893000000000000000000000000),
  (999999999712371871964583616029400800000000000000000000000000000000, 562396964358096699052572260347324300000000000000000000000),
  (999999999962717541615887372244007700000000000000000000000000000000, 79547418461009694057427211498709830000000000000000000000),
  (999999999995989717985564064807341900000000000000000000000000000000, 9338202219144245820331549258686707000000000000000000000),
  (999999999999648179597242567161083600000000000000000000000000000000, 894177928842786258831709379314405000000000000000000000),
  (999999999999975297904120353253877700000000000000000000000000000000, 68531679733748794365218929696323190000000000000000000),
  (999999999999998640269533171990076900000000000000000000000000000000, 4118117107161034990559333521471693000000000000000000),
  (999999999999999942628435030766497300000000000000000000000000000000, 189696395956973587941974905092302700000000000000000),
  (999999999999999998189547821547682400000000000000000000000000000000, 6535662915983283786232274653687822000000000000000),
  (999999999999999999958402649268856800000000000000000000000000000000, 163956384377400941584994766145790100000000000000),
  (999999999999999999999324222304858700000000000000000000000000000000, 2908327130861569891571272282173895000000000000),
  (999999999999999999999992481977859000000000000000000000000000000000, 35329193471172692922379649163844710000000000),
  (999999999999999999999999944691784600000000000000000000000000000000, 283806419339907347987601775479273100000000),
  (999999999999999999999999999741004800000000000000000000000000000000, 1451230603951000450693537587700208000000)]

/-- n = 86. quadrature_lib.cpp:8752-8837. -/
def b86 : List (Nat × Nat) := [
  (138926405058046413036781034498828800000, 778860945069481984441129281072110300000),
  (29815475893659764575634764033699250000000, 153198203743067854898208245852874500000000),
  (4087416392843568768458572411888274000000000, 19248950730677885531803992334641560000000000),
  (371622796050195612193233913909142200000000000, 1604050471126941340943723153822810000000000000),
  (23192000322602657568693384159348120000000000000, 91753954371345076185107855153940120000000000000),
  (1025289163000067323918248026195104000000000000000, 3718089099882768737106158772177227000000000000000),
  (33050264983518207665561344227142390000000000000000, 109863692900060057531922982232607000000000000000000),
  (797674998357482805464472819404779500000000000000000, 2430712720966652848088010559202544000000000000000000),
  (14768729226808946705884476036501820000000000000000000, 41257799814537662101725907462001950000000000000000000),
  (214482603938077454703737120017148600000000000000000000, 549341324414194980394887942166489200000000000000000000),
  (2493642741394989446907050497115545000000000000000000000, 5856116841102759764926334966846068000000000000000000000),
  (23647995329329737181592356929829810000000000000000000000, 50926095989295482014709557854316800000000000000000000000),
  (186089708066257421582147854053901700000000000000000000000, 367529981409578826954382153804969700000000000000000000000),
  (1234384235702462521079734566725130000000000000000000000000, 2236192185669597121964753953382801000000000000000000000000),
  (7002362713539637895638351513663578000000000000000000000000, 11637715593733606386383260164352800000000000000000000000000),
  (34423359432509776699567269485163900000000000000000000000000, 52496590856499663958324278771662320000000000000000000000000),
  (148439770006512382355837886182460100000000000000000000000000, 207773470318205835186271648124728500000000000000000000000000),
  (567774090247081533093600377377865100000000000000000000000000, 729633212160226011978892368701251700000000000000000000000000),
  (1946129683029162886593220865249659000000000000000000000000000, 2296892586760750166605573132462855000000000000000000000000000),
  (6034174264650065265324802036846294000000000000000000000000000, 6543416940225084490265294844862895000000000000000000000000000),
  (17071023851669494162902577640951070000000000000000000000000000, 17016620565923409116493118411017130000000000000000000000000000),
  (44415748725776957423758767634720200000000000000000000000000000, 40721309787532318564979090163807840000000000000000000000000000),
  (107055434984665822786959091206297800000000000000000000000000000, 90332894742277657448153266045336620000000000000000000000000000),
  (240642894702698842989118862509999300000000000000000000000000000, 187017477228673060121724214630960700000000000000000000000000000),
  (507558055152612337953263986227155600000000000000000000000000000, 363598180751667503631523872436281400000000000000000000000000000),
  (1010124029037709153059175076790460000000000000000000000000000000, 667606558456333987698100116919575600000000000000000000000000000),
  (1906566147687656757053402522912062000000000000000000000000000000, 1163606248336459135650284619949178000000000000000000000000000000),
  (3428645042983441227397538454224885000000000000000000000000000000, 1934100371534466305631822613558461000000000000000000000000000000),
  (5899198346122244698524236293394238000000000000000000000000000000, 3078327681756136158462981329754870000000000000000000000000000000),
  (9747146515950064584205434903644553000000000000000000000000000000, 4708289681615563350313084333507699000000000000000000000000000000),
  (15516891893813164014516034239461920000000000000000000000000000000, 6941419979610462763429852371222354000000000000000000000000000000),
  (23868509793623618894543374022981060000000000000000000000000000000, 9889440411831031360751529090787489000000000000000000000000000000),
  (35564799717945803425612264855607310000000000000000000000000000000, 13643232811673123313672024417978820000000000000000000000000000000),
  (51441344139389491780518001881407080000000000000000000000000000000, 18254111704340594586258882351636210000000000000000000000000000000),
  (72356538795617891710919493836937060000000000000000000000000000000, 23712812087974390539114618272091420000000000000000000000000000000),
  (99120495339211948897094473208877590000000000000000000000000000000, 29928803801926013525812527950901700000000000000000000000000000000),
  (132405061046374848316529182344472800000000000000000000000000000000, 36714005333534776620873112720972330000000000000000000000000000000),
  (172641902895251037906121102881155500000000000000000000000000000000, 43776125195894012705745132969889310000000000000000000000000000000),
  (219921022353785844070736555885356000000000000000000000000000000000, 50727008997784733099378439036067850000000000000000000000000000000),
  (273906826344716338041807055388818500000000000000000000000000000000, 57109798354261064654335428792071950000000000000000000000000000000),
  (333791036652520260596079448203074200000000000000000000000000000000, 62445074961221354160700434407930950000000000000000000000000000000),
  (398299370975591675156635357990728200000000000000000000000000000000, 66290949705608833396668742375352910000000000000000000000000000000),
  (465761160120875080364169768316601000000000000000000000000000000000, 68306755117951138465162450220975960000000000000000000000000000000),
  (534238839879124919635830231683398900000000000000000000000000000000, 68306755117951138465162450220975960000000000000000000000000000000),
  (601700629024408324843364642009271800000000000000000000000000000000, 66290949705608833396668742375352910000000000000000000000000000000),
  (666208963347479739403920551796925800000000000000000000000000000000, 62445074961221354160700434407930950000000000000000000000000000000),
  (726093173655283661958192944611181600000000000000000000000000000000, 57109798354261064654335428792071950000000000000000000000000000000),
  (780078977646214155929263444114644100000000000000000000000000000000, 50727008997784733099378439036067850000000000000000000000000000000),
  (827358097104748962093878897118844500000000000000000000000000000000, 43776125195894012705745132969889310000000000000000000000000000000),
  (867594938953625151683470817655527200000000000000000000000000000000, 36714005333534776620873112720972330000000000000000000000000000000),
  (900879504660788051102905526791122400000000000000000000000000000000, 29928803801926013525812527950901700000000000000000000000000000000),
  (927643461204382108289080506163062800000000000000000000000000000000, 23712812087974390539114618272091420000000000000000000000000000000),
  (948558655860610508219481998118593000000000000000000000000000000000, 18254111704340594586258882351636210000000000000000000000000000000),
  (964435200282054196574387735144392700000000000000000000000000000000, 13643232811673123313672024417978820000000000000000000000000000000),
  (976131490206376381105456625977019000000000000000000000000000000000, 9889440411831031360751529090787489000000000000000000000000000000),
  (984483108106186835985483965760538200000000000000000000000000000000, 6941419979610462763429852371222354000000000000000000000000000000),
  (990252853484049935415794565096355500000000000000000000000000000000, 4708289681615563350313084333507699000000000000000000000000000000),
  (994100801653877755301475763706605700000000000000000000000000000000, 3078327681756136158462981329754867000000000000000000000000000000),
  (996571354957016558772602461545775100000000000000000000000000000000, 1934100371534466305631822613558461000000000000000000000000000000),
  (998093433852312343242946597477087900000000000000000000000000000000, 1163606248336459135650284619949178000000000000000000000000000000),
  (998989875970962290846940824923209600000000000000000000000000000000, 667606558456333987698100116919575600000000000000000000000000000),
  (999492441944847387662046736013772800000000000000000000000000000000, 363598180751667503631523872436281400000000000000000000000000000),
  (999759357105297301157010881137490000000000000000000000000000000000, 187017477228673060121724214630960700000000000000000000000000000),
  (999892944565015334177213040908793700000000000000000000000000000000, 90332894742277657448153266045336620000000000000000000000000000),
  (999955584251274223042576241232365300000000000000000000000000000000, 40721309787532318564979090163807840000000000000000000000000000),
  (999982928976148330505837097422359100000000000000000000000000000000, 17016620565923409116493118411017160000000000000000000000000000),
  (999993965825735349934734675197963300000000000000000000000000000000, 6543416940225084490265294844862885000000000000000000000000000),
  (999998053870316970837113406779134700000000000000000000000000000000, 2296892586760750166605573132462855000000000000000000000000000),
  (999999432225909752918466906399622700000000000000000000000000000000, 729633212160226011978892368701251700000000000000000000000000),
  (999999851560229993487617644162113800000000000000000000000000000000, 207773470318205835186271648124728500000000000000000000000000),
  (999999965576640567490223300432730400000000000000000000000000000000, 52496590856499663958324278771662320000000000000000000000000),
  (999999992997637286460362104361648400000000000000000000000000000000, 11637715593733606386383260164352800000000000000000000000000),
  (999999998765615764297537478920265500000000000000000000000000000000, 2236192185669597121964753953382801000000000000000000000000),
  (999999999813910291933742578417852100000000000000000000000000000000, 367529981409578826954382153804968600000000000000000000000),
  (999999999976352004670670262818407600000000000000000000000000000000, 50926095989295482014709557854316790000000000000000000000),
  (999999999997506357258605010553093000000000000000000000000000000000, 5856116841102759764926334966846068000000000000000000000),
  (999999999999785517396061922545296200000000000000000000000000000000, 549341324414194980394887942166489200000000000000000000),
  (999999999999985231270773191053294000000000000000000000000000000000, 41257799814537662101725907462001960000000000000000000),
  (999999999999999202325001642517194600000000000000000000000000000000, 2430712720966652848088010559202544000000000000000000),
  (999999999999999966949735016481792300000000000000000000000000000000, 109863692900060057531922982232607000000000000000000),
  (999999999999999998974710836999932800000000000000000000000000000000, 3718089099882768737106158772177206000000000000000),
  (999999999999999999976807999677397400000000000000000000000000000000, 91753954371345076185107855153940120000000000000),
  (999999999999999999999628377203949900000000000000000000000000000000, 1604050471126941340943723153822820000000000000),
  (999999999999999999999995912583607200000000000000000000000000000000, 19248950730677885531803992334641570000000000),
  (999999999999999999999999970184524100000000000000000000000000000000, 153198203743067854898208245852874500000000),
  (999999999999999999999999999861073600000000000000000000000000000000, 778860945069481984441129281072110300000)]

/-- Blocks 71..86. -/
def blocks2 : List (List (Nat × Nat)) := [b71, b72, b73, b74, b75, b76, b77, b78, b79, b80, b81, b82, b83, b84, b85, b86]

end Qugar.TanhSinhTable
