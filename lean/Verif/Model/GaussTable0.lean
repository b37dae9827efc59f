/-
GENERATED (see DESIGN.md) from cpp/qugar/quadrature_lib.cpp: rows of `Gauss::get_quad_data` for n = 1..50 points.
Every decimal literal of the source is written as an integer multiple of 10^(-40) (exactly, no rounding); the
rounding of the literals to `double` is not modelled.
-/
namespace Qugar.GaussTable

/-- n = 1. quadrature_lib.cpp:36-36. -/
def b1 : List (Nat × Nat) := [
  (5000000000000000000000000000000000000000, 10000000000000000000000000000000000000000)]

/-- n = 2. quadrature_lib.cpp:37-38. -/
def b2 : List (Nat × Nat) := [
  (2113248654051871177454256097490213000000, 5000000000000000000000000000000000000000),
  (7886751345948128822545743902509787000000, 5000000000000000000000000000000000000000)]

/-- n = 3. quadrature_lib.cpp:39-41. -/
def b3 : List (Nat × Nat) := [
  (1127016653792583114820734600217600000000, 2777777777777777777777777777777777000000),
  (5000000000000000000000000000000000000000, 4444444444444444444444444444444444000000),
  (8872983346207416885179265399782399000000, 2777777777777777777777777777777777000000)]

/-- n = 4. quadrature_lib.cpp:42-45. -/
def b4 : List (Nat × Nat) := [
  (694318442029737123880267555535952200000, 1739274225687269286865319746109997000000),
  (3300094782075718675986671204483777000000, 3260725774312730713134680253890002000000),
  (6699905217924281324013328795516224000000, 3260725774312730713134680253890002000000),
  (9305681557970262876119732444464048000000, 1739274225687269286865319746109997000000)]

/-- n = 5. quadrature_lib.cpp:46-50. -/
def b5 : List (Nat × Nat) := [
  (469100770306680036011865608503034900000, 1184634425280945437571320203599587000000),
  (2307653449471584544818427896498956000000, 2393143352496832340206457574178191000000),
  (5000000000000000000000000000000000000000, 2844444444444444444444444444444444000000),
  (7692346550528415455181572103501044000000, 2393143352496832340206457574178191000000),
  (9530899229693319963988134391496965000000, 1184634425280945437571320203599587000000)]

/-- n = 6. quadrature_lib.cpp:51-56. -/
def b6 : List (Nat × Nat) := [
  (337652428984239860938492227530027000000, 856622461895851725201480710863664800000),
  (1693953067668677431693002024900473000000, 1803807865240693037849167569188580000000),
  (3806904069584015456847491391596440000000, 2339569672863455236949351719947755000000),
  (6193095930415984543152508608403560000000, 2339569672863455236949351719947755000000),
  (8306046932331322568306997975099527000000, 1803807865240693037849167569188580000000),
  (9662347571015760139061507772469973000000, 856622461895851725201480710863664800000)]

/-- n = 7. quadrature_lib.cpp:57-63. -/
def b7 : List (Nat × Nat) := [
  (254460438286207377369051579760743900000, 647424830844348466353057163395410100000),
  (1292344072003027800680676133596058000000, 1398526957446383339507338857118898000000),
  (2970774243113014165466967939615193000000, 1909150252525594724751848877444876000000),
  (5000000000000000000000000000000000000000, 2089795918367346938775510204081633000000),
  (7029225756886985834533032060384807000000, 1909150252525594724751848877444876000000),
  (8707655927996972199319323866403942000000, 1398526957446383339507338857118898000000),
  (9745539561713792622630948420239256000000, 647424830844348466353057163395410100000)]

/-- n = 8. quadrature_lib.cpp:64-71. -/
def b8 : List (Nat × Nat) := [
  (198550717512318841582195657152634700000, 506142681451881295762656771549810500000),
  (1016667612931866302042230317620848000000, 1111905172266872352721779972131206000000),
  (2372337950418355070911304754053768000000, 1568533229389436436689811009933005000000),
  (4082826787521750975302619288199080000000, 1813418916891809914825752246385979000000),
  (5917173212478249024697380711800920000000, 1813418916891809914825752246385979000000),
  (7627662049581644929088695245946232000000, 1568533229389436436689811009933005000000),
  (8983332387068133697957769682379152000000, 1111905172266872352721779972131206000000),
  (9801449282487681158417804342847365000000, 506142681451881295762656771549810500000)]

/-- n = 9. quadrature_lib.cpp:72-80. -/
def b9 : List (Nat × Nat) := [
  (159198802461869550822118985481636000000, 406371941807872059859460790552620700000),
  (819844463366821028502851059651325700000, 903240803474287020292360156214563100000),
  (1933142836497048013456489803292629000000, 1303053482014677311593714347093164000000),
  (3378732882980955354807309926783317000000, 1561735385200014200343152032922217000000),
  (5000000000000000000000000000000000000000, 1651196775006298815822625346434870000000),
  (6621267117019044645192690073216683000000, 1561735385200014200343152032922217000000),
  (8066857163502951986543510196707371000000, 1303053482014677311593714347093164000000),
  (9180155536633178971497148940348674000000, 903240803474287020292360156214563100000),
  (9840801197538130449177881014518364000000, 406371941807872059859460790552620700000)]

/-- n = 10. quadrature_lib.cpp:81-90. -/
def b10 : List (Nat × Nat) := [
  (130467357414141399610179939577740000000, 333356721543440687967844049466658900000),
  (674683166555077446339516557882534700000, 747256745752902965728881698288486700000),
  (1602952158504877968828363174425632000000, 1095431812579910219977674671140816000000),
  (2833023029353764046003670284171079000000, 1346333596549981775456134607847347000000),
  (4255628305091843945575869994351400000000, 1477621123573764350869464973256692000000),
  (5744371694908156054424130005648600000000, 1477621123573764350869464973256692000000),
  (7166976970646235953996329715828921000000, 1346333596549981775456134607847347000000),
  (8397047841495122031171636825574368000000, 1095431812579910219977674671140816000000),
  (9325316833444922553660483442117465000000, 747256745752902965728881698288486700000),
  (9869532642585858600389820060422260000000, 333356721543440687967844049466658900000)]

/-- n = 11. quadrature_lib.cpp:91-101. -/
def b11 : List (Nat × Nat) := [
  (108856709269715035980309994385713100000, 278342835580868332413768602212743200000),
  (564687001159523504624211153480363500000, 627901847324523123173471496119700100000),
  (1349239972129753379532918739844233000000, 931451054638671257130488207158279800000),
  (2404519353965940920371371652706952000000, 1165968822959952399592618524215877000000),
  (3652284220238275138342340072995692000000, 1314022722551233310903444349452546000000),
  (5000000000000000000000000000000000000000, 1364625433889503153572417641681711000000),
  (6347715779761724861657659927004308000000, 1314022722551233310903444349452546000000),
  (7595480646034059079628628347293048000000, 1165968822959952399592618524215877000000),
  (8650760027870246620467081260155768000000, 931451054638671257130488207158279800000),
  (9435312998840476495375788846519637000000, 627901847324523123173471496119700100000),
  (9891143290730284964019690005614287000000, 278342835580868332413768602212743200000)]

/-- n = 12. quadrature_lib.cpp:102-113. -/
def b12 : List (Nat × Nat) := [
  (92196828766403746547254549253595990000, 235876681932559135973079807425086500000),
  (479413718147625716607670669404519100000, 534696629976592154801273590969981300000),
  (1150486629028476564815530833935910000000, 800391642716731131673262647716796100000),
  (2063410228566912763516487905297329000000, 1015837133615329608745322279048992000000),
  (3160842505009099031236542316781412000000, 1167462682691774043804249494624390000000),
  (4373832957442655422637793152680734000000, 1245735229067013925002812180214755000000),
  (5626167042557344577362206847319266000000, 1245735229067013925002812180214755000000),
  (6839157494990900968763457683218588000000, 1167462682691774043804249494624390000000),
  (7936589771433087236483512094702671000000, 1015837133615329608745322279048992000000),
  (8849513370971523435184469166064091000000, 800391642716731131673262647716796100000),
  (9520586281852374283392329330595481000000, 534696629976592154801273590969981300000),
  (9907803171233596253452745450746404000000, 235876681932559135973079807425086500000)]

/-- n = 13. quadrature_lib.cpp:114-126. -/
def b13 : List (Nat × Nat) := [
  (79084726407059252635852755964451750000, 202420023826579397600107961004929900000),
  (412008003885110173967260817496402600000, 460607499188642239572108879768985000000),
  (992109546333450436028967552085700500000, 694367551098936192318008884344358000000),
  (1788253302798298896780076965022422000000, 890729903809728691400233459980490700000),
  (2757536244817765735610435739361800000000, 1039080237684442511562616096530265000000),
  (3847708420224326029672359394510056000000, 1131415901314486192060450930198883000000),
  (5000000000000000000000000000000000000000, 1162757766154369550972947576344180000000),
  (6152291579775673970327640605489944000000, 1131415901314486192060450930198883000000),
  (7242463755182234264389564260638200000000, 1039080237684442511562616096530265000000),
  (8211746697201701103219923034977579000000, 890729903809728691400233459980490700000),
  (9007890453666549563971032447914300000000, 694367551098936192318008884344358000000),
  (9587991996114889826032739182503597000000, 460607499188642239572108879768985000000),
  (9920915273592940747364147244035548000000, 202420023826579397600107961004929900000)]

/-- n = 14. quadrature_lib.cpp:127-140. -/
def b14 : List (Nat × Nat) := [
  (68580956515938305792013666479735950000, 175597301658759315159164380690958300000),
  (357825581682132413318044303110628900000, 400790435798801049028166385314271400000),
  (863993424651175034051026286748025000000, 607592853439515923447074045362381900000),
  (1563535475941572649259900984903329000000, 786015835790967672848009693119211100000),
  (2423756818209229540173546407244057000000, 927691987389689068708582950625785500000),
  (3404438155360551197821640879157622000000, 1025992318606478019829620328306090000000),
  (4459725256463281689668776748900826000000, 1076319267315788950979382216581300000000),
  (5540274743536718310331223251099174000000, 1076319267315788950979382216581300000000),
  (6595561844639448802178359120842378000000, 1025992318606478019829620328306090000000),
  (7576243181790770459826453592755943000000, 927691987389689068708582950625785500000),
  (8436464524058427350740099015096671000000, 786015835790967672848009693119211100000),
  (9136006575348824965948973713251975000000, 607592853439515923447074045362381900000),
  (9642174418317867586681955696889371000000, 400790435798801049028166385314271400000),
  (9931419043484061694207986333520265000000, 175597301658759315159164380690958300000)]

/-- n = 15. quadrature_lib.cpp:141-155. -/
def b15 : List (Nat × Nat) := [
  (60037409897572857552171407066936930000, 153766209980586341773141967886022100000),
  (313633037996470478461205261448952900000, 351830237440540623546337082253336700000),
  (758967082947863918996758396128915800000, 535796102335859675059347733429346500000),
  (1377911343199149762919069726930310000000, 697853389630771572239023972555141600000),
  (2145139136957305762313866313730447000000, 831346029084969667766004302406044100000),
  (3029243264612183150513963145094773000000, 930805000077811055134002809332114100000),
  (3994029530012827388496858483027019000000, 992157426635557882280591632219196600000),
  (5000000000000000000000000000000000000000, 1012891209627806364403100999837597000000),
  (6005970469987172611503141516972981000000, 992157426635557882280591632219196600000),
  (6970756735387816849486036854905227000000, 930805000077811055134002809332114100000),
  (7854860863042694237686133686269554000000, 831346029084969667766004302406044100000),
  (8622088656800850237080930273069690000000, 697853389630771572239023972555141600000),
  (9241032917052136081003241603871084000000, 535796102335859675059347733429346500000),
  (9686366962003529521538794738551048000000, 351830237440540623546337082253336700000),
  (9939962590102427142447828592933063000000, 153766209980586341773141967886022100000)]

/-- n = 16. quadrature_lib.cpp:156-171. -/
def b16 : List (Nat × Nat) := [
  (52995325041750337019229132748337120000, 135762297058770474258902862280091400000),
  (277124884633837119610057922326958000000, 311267619693239464314219184971888600000),
  (671843988060841280597660511438034000000, 475792558412463924049625538011230900000),
  (1222977958224984830524494025762789000000, 623144856277669360262381410960081800000),
  (1910618777986781257766641179756045000000, 747979944082883660407508652737393200000),
  (2709916111713863068287902785082112000000, 845782596975012690946560395151799200000),
  (3591982246103705433847697492697520000000, 913017075224617944333818339846100100000),
  (4524937450811812799073403322875210000000, 947253052275342481426983616041415400000),
  (5475062549188187200926596677124790000000, 947253052275342481426983616041415400000),
  (6408017753896294566152302507302480000000, 913017075224617944333818339846100100000),
  (7290083888286136931712097214917888000000, 845782596975012690946560395151799200000),
  (8089381222013218742233358820243955000000, 747979944082883660407508652737393200000),
  (8777022041775015169475505974237211000000, 623144856277669360262381410960081800000),
  (9328156011939158719402339488561966000000, 475792558412463924049625538011230900000),
  (9722875115366162880389942077673042000000, 311267619693239464314219184971888600000),
  (9947004674958249662980770867251663000000, 135762297058770474258902862280091400000)]

/-- n = 17. quadrature_lib.cpp:172-188. -/
def b17 : List (Nat × Nat) := [
  (47122623427913321622829900296673650000, 120741514342739659800550131437827200000),
  (246622391156161193886415210520985100000, 277297646869936005647200826791222900000),
  (598804231365070489385221527559221600000, 425180741585895904417676850955309600000),
  (1092429980515992965373849722397620000000, 559419235967019855473941928131779100000),
  (1711644203916546170748488916784988000000, 675681842342627366431599908511752200000),
  (2436547314567615160568767156852241000000, 770228805384051440407157974009793400000),
  (3243841182730618423514072414523270000000, 840020510782250222549853318941615400000),
  (4107579092520760720746612531729672000000, 882813526834963231626354950565986400000),
  (5000000000000000000000000000000000000000, 897232351781032627291328221309428100000),
  (5892420907479239279253387468270328000000, 882813526834963231626354950565986400000),
  (6756158817269381576485927585476730000000, 840020510782250222549853318941615400000),
  (7563452685432384839431232843147759000000, 770228805384051440407157974009793400000),
  (8288355796083453829251511083215011000000, 675681842342627366431599908511752200000),
  (8907570019484007034626150277602380000000, 559419235967019855473941928131779100000),
  (9401195768634929510614778472440778000000, 425180741585895904417676850955309600000),
  (9753377608843838806113584789479015000000, 277297646869936005647200826791222900000),
  (9952877376572086678377170099703326000000, 120741514342739659800550131437827200000)]

/-- n = 18. quadrature_lib.cpp:189-206. -/
def b18 : List (Nat × Nat) := [
  (42174157895345266349919976469245950000, 108080067632416551566713551332262100000),
  (220880252143011224094020535351118300000, 248572744474848982266674731013192300000),
  (536987667512221303969697044364272300000, 382128651274445282645648388083182500000),
  (981475205137384421587912724927046000000, 504710220531435827814069924624173500000),
  (1541564784698233960625544593555758000000, 612776033557392300922595634001007900000),
  (2201145844630262326960642257373354000000, 703214573353253256023656518759736200000),
  (2941244192685786769820341030834742000000, 773423375631326224627090019181873400000),
  (3740568871542472452055135725610444000000, 821382418729163614930268882329637900000),
  (4576124934791323493788690735321081000000, 845711914815717959203282350674933500000),
  (5423875065208676506211309264678919000000, 845711914815717959203282350674933500000),
  (6259431128457527547944864274389556000000, 821382418729163614930268882329637900000),
  (7058755807314213230179658969165258000000, 773423375631326224627090019181873400000),
  (7798854155369737673039357742626645000000, 703214573353253256023656518759736200000),
  (8458435215301766039374455406444242000000, 612776033557392300922595634001007900000),
  (9018524794862615578412087275072954000000, 504710220531435827814069924624173500000),
  (9463012332487778696030302955635728000000, 382128651274445282645648388083182500000),
  (9779119747856988775905979464648881000000, 248572744474848982266674731013192300000),
  (9957825842104654733650080023530754000000, 108080067632416551566713551332262100000)]

/-- n = 19. quadrature_lib.cpp:207-225. -/
def b19 : List (Nat × Nat) := [
  (37965780782077984054911648733697560000, 97308941148632385181560207322192740000),
  (198959239325849845736105796561742300000, 224071133828498001664190787009971500000),
  (484220481925910491786695357338437600000, 345222713688206132903541290030065000000),
  (886426717314285875105387566436430200000, 457450108112249997322310470619198600000),
  (1395169113323853106914520695881092000000, 557833227736669973580119508408829400000),
  (1997273476691594882651809175268803000000, 643769812696681138377578924284385700000),
  (2677146293120195271413664259479488000000, 713033510868033058878730547209515000000),
  (3417179500181850840049413355750775000000, 763830210329298333894277004488315100000),
  (4198206771798873120659519421296282000000, 794844216969771738249782197325235300000),
  (5000000000000000000000000000000000000000, 805272249243918479895818126604583700000),
  (5801793228201126879340480578703718000000, 794844216969771738249782197325235300000),
  (6582820499818149159950586644249225000000, 763830210329298333894277004488315100000),
  (7322853706879804728586335740520512000000, 713033510868033058878730547209515000000),
  (8002726523308405117348190824731197000000, 643769812696681138377578924284385700000),
  (8604830886676146893085479304118908000000, 557833227736669973580119508408829400000),
  (9113573282685714124894612433563570000000, 457450108112249997322310470619198600000),
  (9515779518074089508213304642661562000000, 345222713688206132903541290030065000000),
  (9801040760674150154263894203438258000000, 224071133828498001664190787009971500000),
  (9962034219217922015945088351266302000000, 97308941148632385181560207322192740000)]

/-- n = 20. quadrature_lib.cpp:226-245. -/
def b20 : List (Nat × Nat) := [
  (34357004074525376069388057643398440000, 88070035695760591559309811759264090000),
  (180140363610431043661669344013613800000, 203007149001934706655199761374660600000),
  (438827858743370470661237793983509200000, 313360241670545317847532675935208000000),
  (804415140888905883027354691492396800000, 416383707883523743623790716110231100000),
  (1268340467699246036928474648221792000000, 509650599086202175183750677401749400000),
  (1819731596367424872735816518868570000000, 590972659807592086561886888556911400000),
  (2445664990245864509978179745223745000000, 658443192245883134492472498740815700000),
  (3131469556422902196637259114875364000000, 710480546591910256646491625335824600000),
  (3861070744291774609597519023157127000000, 745864932363018733939143685009847200000),
  (4617367394332513331226797953005809000000, 763766935653629253490421659775488000000),
  (5382632605667486668773202046994191000000, 763766935653629253490421659775488000000),
  (6138929255708225390402480976842873000000, 745864932363018733939143685009847200000),
  (6868530443577097803362740885124636000000, 710480546591910256646491625335824600000),
  (7554335009754135490021820254776254000000, 658443192245883134492472498740815700000),
  (8180268403632575127264183481131429000000, 590972659807592086561886888556911400000),
  (8731659532300753963071525351778208000000, 509650599086202175183750677401749400000),
  (9195584859111094116972645308507603000000, 416383707883523743623790716110231100000),
  (9561172141256629529338762206016491000000, 313360241670545317847532675935208000000),
  (9819859636389568956338330655986386000000, 203007149001934706655199761374660600000),
  (9965642995925474623930611942356602000000, 88070035695760591559309811759264090000)]

/-- n = 21. quadrature_lib.cpp:246-266. -/
def b21 : List (Nat × Nat) := [
  (31239146898052498698789820310295410000, 80086141288871666621123084292355230000),
  (163865807168468528416888925461524300000, 184768948854262468999753341496648800000),
  (399503329247995856049064331425155400000, 285672127134286041418179132362238900000),
  (733183177083413581763746807062161900000, 380500568141896510085258266500916700000),
  (1157800182621610456920610743468860000000, 467222117280169307766448705569660500000),
  (1664305979012938403470166650048304000000, 543986495835741888317372890350528500000),
  (2241905820563900964704906016378433000000, 609157080268642670976835885628667700000),
  (2878289398962806082131655557281060000000, 661344693166687308905262872483878100000),
  (3559893415987994516996037419676998000000, 699436973955365773610667119337915100000),
  (4272190729195524545314845088306568000000, 722622019949850295319135832768762900000),
  (5000000000000000000000000000000000000000, 730405668248452135959925738416856000000),
  (5727809270804475454685154911693432000000, 722622019949850295319135832768762900000),
  (6440106584012005483003962580323002000000, 699436973955365773610667119337915100000),
  (7121710601037193917868344442718940000000, 661344693166687308905262872483878100000),
  (7758094179436099035295093983621567000000, 609157080268642670976835885628667700000),
  (8335694020987061596529833349951696000000, 543986495835741888317372890350528500000),
  (8842199817378389543079389256531141000000, 467222117280169307766448705569660500000),
  (9266816822916586418236253192937839000000, 380500568141896510085258266500916700000),
  (9600496670752004143950935668574845000000, 285672127134286041418179132362238900000),
  (9836134192831531471583111074538476000000, 184768948854262468999753341496648800000),
  (9968760853101947501301210179689705000000, 80086141288871666621123084292355230000)]

/-- n = 22. quadrature_lib.cpp:267-288. -/
def b22 : List (Nat × Nat) := [
  (28527072588003539634842894193504890000, 73139976491361003424955490235927020000),
  (149697510822856364380245066173656500000, 168874507924070773966511234329564200000),
  (365216139064129997396535303704733800000, 261466675763416429701560256366056000000),
  (670937111398499317317871814903106500000, 348982342122602440474807094651088700000),
  (1060915970103959189978610222958243000000, 429708031085338637072218406863514700000),
  (1527563684066586099746550821188716000000, 502070722214404824660394189152681700000),
  (2061797982465442035205615361806764000000, 564661480402696091967003037108921600000),
  (2653220810066214867968346445167968000000, 616261884052562121427804930774072400000),
  (3290320895539578874209262897863102000000, 655867523935311853664824962651537100000),
  (3960697866558893572605767330402271000000, 682707491730075856762869156157587000000),
  (4651303633401388893930791019406860000000, 696259364278159966877051241709049800000),
  (5348696366598611106069208980593140000000, 696259364278159966877051241709049800000),
  (6039302133441106427394232669597728000000, 682707491730075856762869156157587000000),
  (6709679104460421125790737102136898000000, 655867523935311853664824962651537100000),
  (7346779189933785132031653554832032000000, 616261884052562121427804930774072400000),
  (7938202017534557964794384638193236000000, 564661480402696091967003037108921600000),
  (8472436315933413900253449178811284000000, 502070722214404824660394189152681700000),
  (8939084029896040810021389777041758000000, 429708031085338637072218406863514700000),
  (9329062888601500682682128185096894000000, 348982342122602440474807094651088700000),
  (9634783860935870002603464696295266000000, 261466675763416429701560256366056000000),
  (9850302489177143635619754933826343000000, 168874507924070773966511234329564200000),
  (9971472927411996460365157105806495000000, 73139976491361003424955490235927020000)]

/-- n = 23. quadrature_lib.cpp:289-311. -/
def b23 : List (Nat × Nat) := [
  (26153325012239382380371422772128090000, 67059297435708860406547467293076620000),
  (137287643909423840219879615896112800000, 154940029284897221553471098209421700000),
  (335144565869919488254015054807884900000, 240188358655423342858205358160170200000),
  (616238208647791663109215570329271500000, 321162107042629260635848075794555000000),
  (975557991905800539244407965016107100000, 396407058883594774614462623710215800000),
  (1406693184340249027691877581256906000000, 464578830300175737385093086848823400000),
  (1901950621181769218074513441752022000000, 524460457322707050370430925073719900000),
  (2452492610769962251551034760665768000000, 574983201112056824708217564669806400000),
  (3048494809848545842892555635596973000000, 615245421533647652337892003360048000000),
  (3679321595148275347330652308583452000000, 644528610940410749892976696998968400000),
  (4333715878507669445341286588791169000000, 662310197023483086858212323516584400000),
  (5000000000000000000000000000000000000000, 668272860930530876757285552729221700000),
  (5666284121492330554658713411208831000000, 662310197023483086858212323516584400000),
  (6320678404851724652669347691416548000000, 644528610940410749892976696998968400000),
  (6951505190151454157107444364403027000000, 615245421533647652337892003360048000000),
  (7547507389230037748448965239334233000000, 574983201112056824708217564669806400000),
  (8098049378818230781925486558247978000000, 524460457322707050370430925073719900000),
  (8593306815659750972308122418743094000000, 464578830300175737385093086848823400000),
  (9024442008094199460755592034983893000000, 396407058883594774614462623710215800000),
  (9383761791352208336890784429670729000000, 321162107042629260635848075794555000000),
  (9664855434130080511745984945192116000000, 240188358655423342858205358160170200000),
  (9862712356090576159780120384103887000000, 154940029284897221553471098209421700000),
  (9973846674987760617619628577227872000000, 67059297435708860406547467293076620000)]

/-- n = 24. quadrature_lib.cpp:312-335. -/
def b24 : List (Nat × Nat) := [
  (24063900014893199100012951496316020000, 61706148999935997734028335350186670000),
  (126357220143452509008040034959154700000, 142656943144668315906539079759390700000),
  (308627239986336207381754991456392600000, 221387194087099030843013741056691300000),
  (567922364977994828934228290089016200000, 296492924577183903731838792500543800000),
  (899990070130485390230250636651273900000, 366732407055401528670168076265582100000),
  (1299379042107228178780859484500108000000, 430950807659766379585926014918713000000),
  (1759531740315122153737521065446262000000, 488093260520569441349403322321235700000),
  (2272892643055802321708121913908138000000, 537221350579828173912886712233031500000),
  (2831032461869774307564578840433251000000, 577528340268628006766722419533917900000),
  (3424786601519183128066033543400949000000, 608352364639016956022315767381311900000),
  (4044405662631918454206800896214652000000, 629187281734141480606876912555918900000),
  (4679715535686971869574784586876275000000, 639690976733760784870280826123477100000),
  (5320284464313028130425215413123725000000, 639690976733760784870280826123477100000),
  (5955594337368081545793199103785348000000, 629187281734141480606876912555918900000),
  (6575213398480816871933966456599051000000, 608352364639016956022315767381311900000),
  (7168967538130225692435421159566748000000, 577528340268628006766722419533917900000),
  (7727107356944197678291878086091862000000, 537221350579828173912886712233031500000),
  (8240468259684877846262478934553738000000, 488093260520569441349403322321235700000),
  (8700620957892771821219140515499892000000, 430950807659766379585926014918713000000),
  (9100009929869514609769749363348726000000, 366732407055401528670168076265582100000),
  (9432077635022005171065771709910984000000, 296492924577183903731838792500543800000),
  (9691372760013663792618245008543607000000, 221387194087099030843013741056691300000),
  (9873642779856547490991959965040845000000, 142656943144668315906539079759390700000),
  (9975936099985106800899987048503684000000, 61706148999935997734028335350186670000)]

/-- n = 25. quadrature_lib.cpp:336-360. -/
def b25 : List (Nat × Nat) := [
  (22215151047509510456075265530492090000, 56968992505131439739514820566173870000),
  (116680392702412442508423067602029600000, 131774933075160686309509076476495700000),
  (285127143855128302929944151707647200000, 204695783506531563278117438558229800000),
  (525040010608623155744789966085975000000, 274523479879175959629684457702366600000),
  (832786856195829992894894456532151900000, 340191669061784586035935928283539800000),
  (1203703684813211847113585673978195000000, 400703501675005090066174798345556500000),
  (1632168157632658177574396833761889000000, 455141309914818249057486103514458200000),
  (2111685348793885161381550791936730000000, 502679745335253221011034451963429200000),
  (2634986342771425197389089424954040000000, 542598122371318265580469785250583100000),
  (3194138470953060811320891349361797000000, 574291295728558241696627729347779100000),
  (3780665581395057839774048186012742000000, 597278817678923861140890632564505200000),
  (4385676536946448018063200905959816000000, 611212214951550208444797594729257600000),
  (5000000000000000000000000000000000000000, 615880268633577256019514365395250700000),
  (5614323463053551981936799094040184000000, 611212214951550208444797594729257600000),
  (6219334418604942160225951813987258000000, 597278817678923861140890632564505200000),
  (6805861529046939188679108650638203000000, 574291295728558241696627729347779100000),
  (7365013657228574802610910575045961000000, 542598122371318265580469785250583100000),
  (7888314651206114838618449208063270000000, 502679745335253221011034451963429200000),
  (8367831842367341822425603166238111000000, 455141309914818249057486103514458200000),
  (8796296315186788152886414326021805000000, 400703501675005090066174798345556500000),
  (9167213143804170007105105543467848000000, 340191669061784586035935928283539800000),
  (9474959989391376844255210033914025000000, 274523479879175959629684457702366600000),
  (9714872856144871697070055848292353000000, 204695783506531563278117438558229800000),
  (9883319607297587557491576932397970000000, 131774933075160686309509076476495700000),
  (9977784848952490489543924734469507000000, 56968992505131439739514820566173870000)]

/-- n = 26. quadrature_lib.cpp:361-386. -/
def b26 : List (Nat × Nat) := [
  (20571494271915354983915203385469900000, 52756863086715035778255938426259650000),
  (108072770217645044497098228440368700000, 122089255463159543948079137598942200000),
  (264204666691428749320423582409816000000, 189811916471813819751515706244252500000),
  (486810690078464628911672003843948500000, 254879126485739059991599503620366900000),
  (772770286057509906012464692660809300000, 316370231647874177697268449535225800000),
  (1118070255896605719035163763788581000000, 373420748828298729435378980514242000000),
  (1517863697900213675680930431352876000000, 425229471567426196052238825399908000000),
  (1966538534911909683840106265415565000000, 471069001779570742318324415336515700000),
  (2457796425877471411521484676372154000000, 510295805472127116192070351267153700000),
  (2984741224382568467594613114505585000000, 542359202642882953282897133639988200000),
  (3539975802570215524285823089610849000000, 566809082731598332747203592212990800000),
  (4115705898215549080154711257908277000000, 583302217426482910223312537701811800000),
  (4703849532853433964531407124007983000000, 591607076396311382581855428502343200000),
  (5296150467146566035468592875992017000000, 591607076396311382581855428502343200000),
  (5884294101784450919845288742091723000000, 583302217426482910223312537701811800000),
  (6460024197429784475714176910389151000000, 566809082731598332747203592212990800000),
  (7015258775617431532405386885494415000000, 542359202642882953282897133639988200000),
  (7542203574122528588478515323627846000000, 510295805472127116192070351267153700000),
  (8033461465088090316159893734584435000000, 471069001779570742318324415336515700000),
  (8482136302099786324319069568647124000000, 425229471567426196052238825399908000000),
  (8881929744103394280964836236211419000000, 373420748828298729435378980514242000000),
  (9227229713942490093987535307339190000000, 316370231647874177697268449535225800000),
  (9513189309921535371088327996156051000000, 254879126485739059991599503620366900000),
  (9735795333308571250679576417590184000000, 189811916471813819751515706244252500000),
  (9891927229782354955502901771559631000000, 122089255463159543948079137598942200000),
  (9979428505728084645016084796614530000000, 52756863086715035778255938426259650000)]

/-- n = 27. quadrature_lib.cpp:387-413. -/
def b27 : List (Nat × Nat) := [
  (19103685555057165305563958093850000000, 48994980256471801305750275456295620000),
  (100382620192493885720633221694763900000, 113431157980903115980171032233807900000),
  (245497210926474965740459846780585300000, 176485268787098555112891446523558400000),
  (452588396612544478496774908951553800000, 237247062603075313520483550570923300000),
  (718960459908527548486313886465785900000, 294917684299167995551504168597658900000),
  (1041141804647458864278013279463646000000, 348744118831227964921614441783335800000),
  (1414932631302881503525918941788302000000, 398024338865288856315374795049212700000),
  (1835460140267524295361326811827557000000, 442115792718784750971614014268746200000),
  (2297242177102715525498495292200086000000, 480443636850142537828263232790529100000),
  (2794258741249865597070129221553593000000, 512508189088728993356238557663319100000),
  (3320030481807455501348404828963577000000, 537891428942665936060814922133286900000),
  (3867703172802315705713804463198849000000, 556262441784225963360815480214243400000),
  (4430137071952350165335525080650117000000, 567381730544825743101849740460496500000),
  (5000000000000000000000000000000000000000, 571104336894784945225228684509176200000),
  (5569862928047649834664474919349883000000, 567381730544825743101849740460496500000),
  (6132296827197684294286195536801151000000, 556262441784225963360815480214243400000),
  (6679969518192544498651595171036423000000, 537891428942665936060814922133286900000),
  (7205741258750134402929870778446407000000, 512508189088728993356238557663319100000),
  (7702757822897284474501504707799914000000, 480443636850142537828263232790529100000),
  (8164539859732475704638673188172443000000, 442115792718784750971614014268746200000),
  (8585067368697118496474081058211697000000, 398024338865288856315374795049212700000),
  (8958858195352541135721986720536354000000, 348744118831227964921614441783335800000),
  (9281039540091472451513686113534214000000, 294917684299167995551504168597658900000),
  (9547411603387455521503225091048446000000, 237247062603075313520483550570923300000),
  (9754502789073525034259540153219415000000, 176485268787098555112891446523558400000),
  (9899617379807506114279366778305237000000, 113431157980903115980171032233807900000),
  (9980896314444942834694436041906150000000, 48994980256471801305750275456295620000)]

/-- n = 28. quadrature_lib.cpp:414-441. -/
def b28 : List (Nat × Nat) := [
  (17787512130227750247818047583445160000, 45621412965472588694080769614758940000),
  (93484173145636231527200270960848590000, 105660562963856298757501904966327200000),
  (228703596855309013729490801473922200000, 164507138911521899888154095852660900000),
  (421834868039339630651552883350364500000, 221364673795021139197939388266037600000),
  (670537387128024755288727163101566200000, 275536728378583727157414591134728000000),
  (971793145414104142760570222873612000000, 326364619834997978966987833877523800000),
  (1321945609931841139859277448537328000000, 373231071172843895119659435865110000000),
  (1716744529805675193900509117466286000000, 415567086144506091951982491221662600000),
  (2151397640942991403459983583217845000000, 452858721965164204710930156683921000000),
  (2620628875224408694827940761662830000000, 484653289989649579252445030477203400000),
  (3118742419554606448893213952219565000000, 510564837890303849071083192528560800000),
  (3639691861824109611615868219371151000000, 530278829614232089552082184984054600000),
  (4177153589333096143592641110544173000000, 543555961291470676267857596518366600000),
  (4724603550579828647867417363290600000000, 550235065082375981411881328009088500000),
  (5275396449420171352132582636709400000000, 550235065082375981411881328009088500000),
  (5822846410666903856407358889455827000000, 543555961291470676267857596518366600000),
  (6360308138175890388384131780628849000000, 530278829614232089552082184984054600000),
  (6881257580445393551106786047780435000000, 510564837890303849071083192528560800000),
  (7379371124775591305172059238337170000000, 484653289989649579252445030477203400000),
  (7848602359057008596540016416782155000000, 452858721965164204710930156683921000000),
  (8283255470194324806099490882533714000000, 415567086144506091951982491221662600000),
  (8678054390068158860140722551462672000000, 373231071172843895119659435865110000000),
  (9028206854585895857239429777126388000000, 326364619834997978966987833877523800000),
  (9329462612871975244711272836898433000000, 275536728378583727157414591134728000000),
  (9578165131960660369348447116649635000000, 221364673795021139197939388266037600000),
  (9771296403144690986270509198526078000000, 164507138911521899888154095852660900000),
  (9906515826854363768472799729039151000000, 105660562963856298757501904966327200000),
  (9982212487869772249752181952416554000000, 45621412965472588694080769614758940000)]

/-- n = 29. quadrature_lib.cpp:442-470. -/
def b29 : List (Nat × Nat) := [
  (16602788697017069184042337253230440000, 42584519393732048271319066511249670000),
  (87272473692934125645369921068115460000, 98660425280613529919299008201978340000),
  (213572021109561371008959815095882300000, 153702461010468113222042626873083400000),
  (394098835234706074531232819584467700000, 207010312593414180524150050570384100000),
  (626810975399486047911032893717107000000, 257974134512489619562971905897712900000),
  (909072561923737775052138927106075300000, 306015453285395692710549240119535000000),
  (1237685741327614330436949613939309000000, 350589666275256392847907434744396400000),
  (1608927311986567424219074973040070000000, 391191635678818919140724443298401400000),
  (2018591014308860898102068944055051000000, 427361286830862637726724246486040200000),
  (2462035224378861789486860401862399000000, 458688785696293816739832055385554100000),
  (2934235559129956680546467069841916000000, 484819170472043031509500374413444200000),
  (3429841810661800325259020384044763000000, 505456368799574830609102734537487500000),
  (3943238569169994627468121355485313000000, 520366550388646869566642356425600300000),
  (4468608849336603849145088037848115000000, 529380775486604707032956639260939700000),
  (5000000000000000000000000000000000000000, 532396908591571221232555634548387800000),
  (5531391150663396150854911962151885000000, 529380775486604707032956639260939700000),
  (6056761430830005372531878644514687000000, 520366550388646869566642356425600300000),
  (6570158189338199674740979615955237000000, 505456368799574830609102734537487500000),
  (7065764440870043319453532930158084000000, 484819170472043031509500374413444200000),
  (7537964775621138210513139598137600000000, 458688785696293816739832055385554100000),
  (7981408985691139101897931055944949000000, 427361286830862637726724246486040200000),
  (8391072688013432575780925026959930000000, 391191635678818919140724443298401400000),
  (8762314258672385669563050386060691000000, 350589666275256392847907434744396400000),
  (9090927438076262224947861072893925000000, 306015453285395692710549240119535000000),
  (9373189024600513952088967106282893000000, 257974134512489619562971905897712900000),
  (9605901164765293925468767180415532000000, 207010312593414180524150050570384100000),
  (9786427978890438628991040184904118000000, 153702461010468113222042626873083400000),
  (9912727526307065874354630078931885000000, 98660425280613529919299008201978340000),
  (9983397211302982930815957662746770000000, 42584519393732048271319066511249670000)]

/-- n = 30. quadrature_lib.cpp:471-500. -/
def b30 : List (Nat × Nat) := [
  (15532579626752298641849745406523800000, 39840962480833028077329417373368110000),
  (81659383601263950149837091971685790000, 92332341555454795711510659560236340000),
  (199890675158462438915644872091011800000, 143923539416616846748595898056460200000),
  (368999762853628370603378614597629900000, 193995962848135247984009682231738500000),
  (587197321039736592284417687348872100000, 242013364152970264514690702114037600000),
  (852171188086158012785509401337490400000, 287465781088095332408608447010280600000),
  (1161112839475869025410113295127484000000, 329871149410902475640642575579811800000),
  (1510747526033421015338538059866800000000, 368779873688526031341219250110953700000),
  (1897369085053785694297612217844053000000, 403779476147101076773474692302648600000),
  (2316879259289900503679151033444636000000, 434498936005414899011937653575628500000),
  (2764831152309554116096950498385730000000, 460612611188930643588163535438093800000),
  (3236476372345609432644813964553131000000, 481843685873221298197343131759049300000),
  (3726815369160550767800974350910974000000, 497967102933976335313901410517847400000),
  (4230650431957082265181026636283720000000, 508811948742027522982144760842770200000),
  (4742640787223411520834873934166387000000, 514263264467794201706428183527075200000),
  (5257359212776588479165126065833613000000, 514263264467794201706428183527075200000),
  (5769349568042917734818973363716280000000, 508811948742027522982144760842770200000),
  (6273184630839449232199025649089026000000, 497967102933976335313901410517847400000),
  (6763523627654390567355186035446869000000, 481843685873221298197343131759049300000),
  (7235168847690445883903049501614270000000, 460612611188930643588163535438093800000),
  (7683120740710099496320848966555364000000, 434498936005414899011937653575628500000),
  (8102630914946214305702387782155947000000, 403779476147101076773474692302648600000),
  (8489252473966578984661461940133201000000, 368779873688526031341219250110953700000),
  (8838887160524130974589886704872515000000, 329871149410902475640642575579811800000),
  (9147828811913841987214490598662510000000, 287465781088095332408608447010280600000),
  (9412802678960263407715582312651127000000, 242013364152970264514690702114037600000),
  (9631000237146371629396621385402371000000, 193995962848135247984009682231738500000),
  (9800109324841537561084355127908989000000, 143923539416616846748595898056460200000),
  (9918340616398736049850162908028314000000, 92332341555454795711510659560236340000),
  (9984467420373247701358150254593477000000, 39840962480833028077329417373368110000)]

/-- n = 31. quadrature_lib.cpp:501-531. -/
def b31 : List (Nat × Nat) := [
  (14562590902614629721867228884487620000, 37354157896243879293484375161062810000),
  (76570451674237579987674166326576330000, 86593103951552912315789980434105440000),
  (187480374535251691054737979470708500000, 135045095924897109003043540459661000000),
  (346215010516759175215271201353682300000, 182161369561927320121960052339016800000),
  (551199850258644783129039955089203700000, 227468537636005514511579289473148800000),
  (800398399268663299565477320299108000000, 270515412124584268558331295433099900000),
  (1091334257916875297968199899026578000000, 310873932805142134551717718433483600000),
  (1421116077065733580470145673167570000000, 348142916177051830838780631275628900000),
  (1786466385378698269077908983837493000000, 381951932993883082131788374506653500000),
  (2183754192964253686395275382024193000000, 411964958807946319519116837159808800000),
  (2609031089775487597797029803217571000000, 437883703042389380630990348476665100000),
  (3058070491958835284693242693562399000000, 459450569468207391076814358035750000000),
  (3526409650091491916910480511641478000000, 476451214561597564036020987437983700000),
  (4009394003322146856137935019835830000000, 488716676931643625467370054894983400000),
  (4502223439238292398374126049405296000000, 496125056133361539374377572143075300000),
  (5000000000000000000000000000000000000000, 498602723967132257137669168671747200000),
  (5497776560761707601625873950594703000000, 496125056133361539374377572143075300000),
  (5990605996677853143862064980164170000000, 488716676931643625467370054894983400000),
  (6473590349908508083089519488358522000000, 476451214561597564036020987437983700000),
  (6941929508041164715306757306437601000000, 459450569468207391076814358035750000000),
  (7390968910224512402202970196782429000000, 437883703042389380630990348476665100000),
  (7816245807035746313604724617975807000000, 411964958807946319519116837159808800000),
  (8213533614621301730922091016162508000000, 381951932993883082131788374506653500000),
  (8578883922934266419529854326832430000000, 348142916177051830838780631275628900000),
  (8908665742083124702031800100973423000000, 310873932805142134551717718433483600000),
  (9199601600731336700434522679700892000000, 270515412124584268558331295433099900000),
  (9448800149741355216870960044910796000000, 227468537636005514511579289473148800000),
  (9653784989483240824784728798646317000000, 182161369561927320121960052339016800000),
  (9812519625464748308945262020529292000000, 135045095924897109003043540459661000000),
  (9923429548325762420012325833673423000000, 86593103951552912315789980434105440000),
  (9985437409097385370278132771115512000000, 37354157896243879293484375161062810000)]

/-- n = 32. quadrature_lib.cpp:532-563. -/
def b32 : List (Nat × Nat) := [
  (13680690752592182275094356674796500000, 35093050047350483002035318694266210000),
  (71942442273658322999124776845489900000, 81371973654528353025852811031932750000),
  (176188722062467846130940359408625400000, 126960326546310297278762948946119800000),
  (325469620311301554145404325822953300000, 171369314565107165513438661261864000000),
  (518394221169739380173463781403938500000, 214179490111133403284393233030627400000),
  (753161931337150149331534975161287400000, 254990296311880880980816223447608100000),
  (1027581020160287965184513505147855000000, 293420467392677735726418186500854500000),
  (1339089406298551598062866674543664000000, 329111113881809234188250318534693900000),
  (1684778665348923995124424156683808000000, 361728970544242531126996782392438900000),
  (2061421213796188354796272617990866000000, 390969478935351532358704594141532800000),
  (2465500455338853049881262628110894000000, 416559621134733776110995373021743000000),
  (2893243619346823273179402819137868000000, 438260465022019055713857313759011500000),
  (3340656988589361751100415971349060000000, 455869393478819423564342885558185500000),
  (3803563188739314627276983954172492000000, 469221995404022828195901188340586800000),
  (4277640192086017532574068132005947000000, 478193600396374297095410011020654900000),
  (4758461671561308418825937147797489000000, 482700442573639002833824150317879000000),
  (5241538328438691581174062852202511000000, 482700442573639002833824150317879000000),
  (5722359807913982467425931867994054000000, 478193600396374297095410011020654900000),
  (6196436811260685372723016045827508000000, 469221995404022828195901188340586800000),
  (6659343011410638248899584028650940000000, 455869393478819423564342885558185500000),
  (7106756380653176726820597180862133000000, 438260465022019055713857313759011500000),
  (7534499544661146950118737371889106000000, 416559621134733776110995373021743000000),
  (7938578786203811645203727382009135000000, 390969478935351532358704594141532800000),
  (8315221334651076004875575843316192000000, 361728970544242531126996782392438900000),
  (8660910593701448401937133325456335000000, 329111113881809234188250318534693900000),
  (8972418979839712034815486494852145000000, 293420467392677735726418186500854500000),
  (9246838068662849850668465024838712000000, 254990296311880880980816223447608100000),
  (9481605778830260619826536218596061000000, 214179490111133403284393233030627400000),
  (9674530379688698445854595674177047000000, 171369314565107165513438661261864000000),
  (9823811277937532153869059640591375000000, 126960326546310297278762948946119800000),
  (9928057557726341677000875223154511000000, 81371973654528353025852811031932750000),
  (9986319309247407817724905643325204000000, 35093050047350483002035318694266210000)]

/-- n = 33. quadrature_lib.cpp:564-596. -/
def b33 : List (Nat × Nat) := [
  (12876528767723913669159912097979360000, 33031139237936890293246176042369760000),
  (67721368846787559448121508676870360000, 76608507564673380639728842668309690000),
  (165885451550036155358111466607038800000, 119577740508747401752666287645931000000),
  (306528136944158248220824378182231700000, 161501793161644766407807236247156500000),
  (488416161282832084797343342406192100000, 202007706658347957817048952636993000000),
  (709951736617479676784692599269657500000, 240738714093558478350734400690598400000),
  (969188218629167051018995646086114300000, 277354233158317806424722477196295200000),
  (1263847517752189210704724375510259000000, 311532412651587400158138628854488100000),
  (1591340200151286068658920265403359000000, 342972864093283564029775365074793100000),
  (1948788270818104863463562432309513000000, 371399274219770746712360879592360500000),
  (2333050476068261782255528675022540000000, 396561823974433691819541924709988000000),
  (2740749913637746521370033613796165000000, 418239380335193538069640072588303100000),
  (3168303711259633294648896883730645000000, 436241438094221688036408354727232500000),
  (3611954514237514852983759663508395000000, 450409793303192886198718527501117500000),
  (4067803505860042138321006203905880000000, 460619933216584231066204888586815600000),
  (4531844670726333071646285379387311000000, 466782130327980580804995631371377500000),
  (5000000000000000000000000000000000000000, 468842230801049982836522707731743900000),
  (5468155329273666928353714620612689000000, 466782130327980580804995631371377500000),
  (5932196494139957861678993796094120000000, 460619933216584231066204888586815600000),
  (6388045485762485147016240336491605000000, 450409793303192886198718527501117500000),
  (6831696288740366705351103116269355000000, 436241438094221688036408354727232500000),
  (7259250086362253478629966386203835000000, 418239380335193538069640072588303100000),
  (7666949523931738217744471324977461000000, 396561823974433691819541924709988000000),
  (8051211729181895136536437567690487000000, 371399274219770746712360879592360500000),
  (8408659799848713931341079734596641000000, 342972864093283564029775365074793100000),
  (8736152482247810789295275624489741000000, 311532412651587400158138628854488100000),
  (9030811781370832948981004353913886000000, 277354233158317806424722477196295200000),
  (9290048263382520323215307400730342000000, 240738714093558478350734400690598400000),
  (9511583838717167915202656657593808000000, 202007706658347957817048952636993000000),
  (9693471863055841751779175621817768000000, 161501793161644766407807236247156500000),
  (9834114548449963844641888533392961000000, 119577740508747401752666287645931000000),
  (9932278631153212440551878491323130000000, 76608507564673380639728842668309690000),
  (9987123471232276086330840087902021000000, 33031139237936890293246176042369760000)]

/-- n = 34. quadrature_lib.cpp:597-630. -/
def b34 : List (Nat × Nat) := [
  (12141231045790403783137812726853680000, 31145702779543423593032305357189360000),
  (63860917968452574751247844501575430000, 72250813742975177076011051643734910000),
  (156458687333278591176767134720032800000, 112818609927474850420470443574771400000),
  (289188012974464541841619872697135200000, 152456903192230659047211938406587900000),
  (460951611408377655995500554903562500000, 190832968981937581608829601449883300000),
  (670326808327177653682139546643500600000, 227628057616766362269112816976353400000),
  (915578860495331677042105467065133800000, 262537072863390530841229874212338000000),
  (1194675616850634929062955155106316000000, 295270679137622465969804861752631200000),
  (1505304433918685460334999467121114000000, 325557607770382056892722150324469000000),
  (1844891364597357273411121222404959000000, 353146879071278624995193982838426700000),
  (2210622496651266786317700568918627000000, 377809873300159656354169871142178900000),
  (2599467274048364829029486597463015000000, 399342221698859223694094164032189800000),
  (3008203611206770296842526235338242000000, 417565498499228275935101140230747100000),
  (3433444593302683762708416171745110000000, 432328698735178748921234281403737300000),
  (3871666541917752580656794095328264000000, 443509489178469346435382286824403700000),
  (4319238213704085120527855878344411000000, 451015221853203647869711210087469300000),
  (4772450890234487286254621645740349000000, 454783701651299368076688019742889700000),
  (5227549109765512713745378354259651000000, 454783701651299368076688019742889700000),
  (5680761786295914879472144121655589000000, 451015221853203647869711210087469300000),
  (6128333458082247419343205904671736000000, 443509489178469346435382286824403700000),
  (6566555406697316237291583828254890000000, 432328698735178748921234281403737300000),
  (6991796388793229703157473764661757000000, 417565498499228275935101140230747100000),
  (7400532725951635170970513402536985000000, 399342221698859223694094164032189800000),
  (7789377503348733213682299431081373000000, 377809873300159656354169871142178900000),
  (8155108635402642726588878777595041000000, 353146879071278624995193982838426700000),
  (8494695566081314539665000532878886000000, 325557607770382056892722150324469000000),
  (8805324383149365070937044844893684000000, 295270679137622465969804861752631200000),
  (9084421139504668322957894532934866000000, 262537072863390530841229874212338000000),
  (9329673191672822346317860453356499000000, 227628057616766362269112816976353400000),
  (9539048388591622344004499445096438000000, 190832968981937581608829601449883300000),
  (9710811987025535458158380127302865000000, 152456903192230659047211938406587900000),
  (9843541312666721408823232865279967000000, 112818609927474850420470443574771400000),
  (9936139082031547425248752155498425000000, 72250813742975177076011051643734910000),
  (9987858768954209596216862187273146000000, 31145702779543423593032305357189360000)]

/-- n = 35. quadrature_lib.cpp:631-665. -/
def b35 : List (Nat × Nat) := [
  (11467154501998513699184303439526560000, 29417167102215424878769481200562770000),
  (60321177780742509824414554072570220000, 68254141741807461332020014602581860000),
  (147811919803850833924647587076149200000, 106614899557417904417189919831024800000),
  (273274258960863352306370072350126800000, 144146300544471270243580198572424500000),
  (435728693203411927675314682221178700000, 180550579317316902663584848237750000000),
  (633904374873888342383588254293073600000, 215542111630851093911532296874541300000),
  (866250504538872965829746936257212000000, 248846852006767649025998380424974900000),
  (1130948738565437223662884953950563000000, 280204081061850642891638735825505200000),
  (1425927492216856083677956843877766000000, 309368359830400944435070693943444100000),
  (1748878176670548056621035955077204000000, 336111426345434519821527543740742400000),
  (2097273276251177450327489959051550000000, 360223973862800323327309548926388200000),
  (2468386133792556924878512220813363000000, 381517285777210267693292689421131100000),
  (2859312292410928729061896934992601000000, 399824711211621314663310404925228200000),
  (3266992227845930270615100825348809000000, 415002968644282941899632641080885200000),
  (3688235293953519710145523997722097000000, 426933266960495626129719936955587800000),
  (4119744694170052150128481717774700000000, 435522234985917671216610158027704900000),
  (4558143283621703681995352832512256000000, 440702652151377314853694037965483600000),
  (5000000000000000000000000000000000000000, 442433974535521453191036938888078300000),
  (5441856716378296318004647167487744000000, 440702652151377314853694037965483600000),
  (5880255305829947849871518282225300000000, 435522234985917671216610158027704900000),
  (6311764706046480289854476002277902000000, 426933266960495626129719936955587800000),
  (6733007772154069729384899174651191000000, 415002968644282941899632641080885200000),
  (7140687707589071270938103065007399000000, 399824711211621314663310404925228200000),
  (7531613866207443075121487779186637000000, 381517285777210267693292689421131100000),
  (7902726723748822549672510040948451000000, 360223973862800323327309548926388200000),
  (8251121823329451943378964044922797000000, 336111426345434519821527543740742400000),
  (8574072507783143916322043156122234000000, 309368359830400944435070693943444100000),
  (8869051261434562776337115046049437000000, 280204081061850642891638735825505200000),
  (9133749495461127034170253063742788000000, 248846852006767649025998380424974900000),
  (9366095625126111657616411745706926000000, 215542111630851093911532296874541300000),
  (9564271306796588072324685317778821000000, 180550579317316902663584848237750000000),
  (9726725741039136647693629927649873000000, 144146300544471270243580198572424500000),
  (9852188080196149166075352412923851000000, 106614899557417904417189919831024800000),
  (9939678822219257490175585445927430000000, 68254141741807461332020014602581860000),
  (9988532845498001486300815696560474000000, 29417167102215424878769481200562770000)]

/-- n = 36. quadrature_lib.cpp:666-701. -/
def b36 : List (Nat × Nat) := [
  (10847687579570819005858272096248610000, 27828598321225226806279921952738270000),
  (57067605488938809633024460614462490000, 64579736420327872022517057488958200000),
  (139861544751510253321974757844458100000, 100907576488677357660494644791105100000),
  (258635078002462273987629425273860800000, 136493107492843895472085904339916500000),
  (412511127421704669620663884869217900000, 171069053851536149606225307813573000000),
  (600350995548014340087863312670822100000, 204378754618224477370572725716315800000),
  (820764165037623467905895637506996900000, 236175417451329892083084148083374300000),
  (1072118849338967435861155174598537000000, 266223569888799595460128141431098400000),
  (1352554142032217089548697604969455000000, 294300721226624086548376999094600000000),
  (1659993817072394689514043278295412000000, 320198986775077447781923993129281900000),
  (1992161709320097324600275124632026000000, 343726619178682213068448196818066000000),
  (2346598570368774191796454599392151000000, 364709425028265306769366884706371000000),
  (2720680277832898663963911653362796000000, 382992053229353372643788668607508600000),
  (3111637264401553918386318051650462000000, 398439144560358009543623327509319300000),
  (3516575023279858647483804761274148000000, 410936333521698547586117367724711700000),
  (3932495538415672105283868855486430000000, 420391094898309674667288121457979000000),
  (4356319480953076056740033059974238000000, 426733428696693137459252715382449600000),
  (4784909007631456963865155108858183000000, 429916378351973737450425873952632600000),
  (5215090992368543036134844891141817000000, 429916378351973737450425873952632600000),
  (5643680519046923943259966940025762000000, 426733428696693137459252715382449600000),
  (6067504461584327894716131144513570000000, 420391094898309674667288121457979000000),
  (6483424976720141352516195238725852000000, 410936333521698547586117367724711700000),
  (6888362735598446081613681948349538000000, 398439144560358009543623327509319300000),
  (7279319722167101336036088346637204000000, 382992053229353372643788668607508600000),
  (7653401429631225808203545400607849000000, 364709425028265306769366884706371000000),
  (8007838290679902675399724875367974000000, 343726619178682213068448196818066000000),
  (8340006182927605310485956721704588000000, 320198986775077447781923993129281900000),
  (8647445857967782910451302395030545000000, 294300721226624086548376999094600000000),
  (8927881150661032564138844825401463000000, 266223569888799595460128141431098400000),
  (9179235834962376532094104362493003000000, 236175417451329892083084148083374300000),
  (9399649004451985659912136687329178000000, 204378754618224477370572725716315800000),
  (9587488872578295330379336115130782000000, 171069053851536149606225307813573000000),
  (9741364921997537726012370574726140000000, 136493107492843895472085904339916500000),
  (9860138455248489746678025242155542000000, 100907576488677357660494644791105100000),
  (9942932394511061190366975539385538000000, 64579736420327872022517057488958200000),
  (9989152312420429180994141727903751000000, 27828598321225226806279921952738270000)]

/-- n = 37. quadrature_lib.cpp:702-738. -/
def b37 : List (Nat × Nat) := [
  (10277087610431755295984628413183410000, 26365286397489696758610271167651360000),
  (54070183928404066579504697078638340000, 61193900501537782631524262181732780000),
  (132534849717571278355547621671203200000, 95645222445419830217509739700530600000),
  (245138283689525893357119515918370300000, 129430184952794667613797406812435700000),
  (391092812937681286659281566496432500000, 162308199237607405336171267507294000000),
  (569375189222569605269252454915567700000, 194048012509672722444811851642380100000),
  (778735063297220160062718619125698700000, 224426823312185833287051520550981800000),
  (1017703997450488533034768322498377000000, 253231488274123008019379315433582000000),
  (1284605830090173687264762912630936000000, 280259939991374589042696198321263700000),
  (1577568454345203212772383937844232000000, 305322582616129930654940522502483400000),
  (1894536957955377584259237042024714000000, 328243614363756247420118831489855800000),
  (2233288040692091093824508208853678000000, 348862257778501724425406783965096000000),
  (2591445610983972229264035655586804000000, 367033886242440863623133157598977100000),
  (2966497453408369449495342041930167000000, 382631037852646189429439956033112600000),
  (3355812850581465002507640993300298000000, 395544309187646903836060936983226200000),
  (3756661036043171205972161242561419000000, 405683122542325152549388008998961200000),
  (4166230348800740115156641347940878000000, 412976361182186254456151505764191900000),
  (4581647955226150490284758341318004000000, 417372868129313936261265047422593000000),
  (5000000000000000000000000000000000000000, 418841804965694523985086831847297000000),
  (5418352044773849509715241658681996000000, 417372868129313936261265047422593000000),
  (5833769651199259884843358652059122000000, 412976361182186254456151505764191900000),
  (6243338963956828794027838757438581000000, 405683122542325152549388008998961200000),
  (6644187149418534997492359006699702000000, 395544309187646903836060936983226200000),
  (7033502546591630550504657958069834000000, 382631037852646189429439956033112600000),
  (7408554389016027770735964344413196000000, 367033886242440863623133157598977100000),
  (7766711959307908906175491791146322000000, 348862257778501724425406783965096000000),
  (8105463042044622415740762957975286000000, 328243614363756247420118831489855800000),
  (8422431545654796787227616062155768000000, 305322582616129930654940522502483400000),
  (8715394169909826312735237087369064000000, 280259939991374589042696198321263700000),
  (8982296002549511466965231677501623000000, 253231488274123008019379315433582000000),
  (9221264936702779839937281380874302000000, 224426823312185833287051520550981800000),
  (9430624810777430394730747545084432000000, 194048012509672722444811851642380100000),
  (9608907187062318713340718433503567000000, 162308199237607405336171267507294000000),
  (9754861716310474106642880484081630000000, 129430184952794667613797406812435700000),
  (9867465150282428721644452378328797000000, 95645222445419830217509739700530600000),
  (9945929816071595933420495302921362000000, 61193900501537782631524262181732780000),
  (9989722912389568244704015371586817000000, 26365286397489696758610271167651360000)]

/-- n = 38. quadrature_lib.cpp:739-776. -/
def b38 : List (Nat × Nat) := [
  (9750347321561900935764617242094894000, 25014403748196728379497710459496520000),
  (51302728668072140277870544471603070000, 58067223582343370888341506002186960000),
  (125768357049232461795572295268057000000, 90782888548066184494380628773911090000),
  (232668345332352021647289234412793700000, 122898698691161879476006027233530900000),
  (371293339757078015874452188934745300000, 154197502725875273293655431566543100000),
  (540721304976838916025314840130412200000, 184470407970123690824700811684075200000),
  (739824890338189055701751443763618600000, 213515792523372171179392171794038600000),
  (967279161973415922242173120101508300000, 241140309303793416871760899557100700000),
  (1221570481230146596311309516103063000000, 267160099551661599868784953156243600000),
  (1501006598104078220435870796862921000000, 291401995734986030111529341290700300000),
  (1803727920851591464098275652498698000000, 313704666960665270264848357625685200000),
  (2127719894760964594335362495377638000000, 333919689895702059675230757645096500000),
  (2470826410360344483797331417661740000000, 351912535334494773696414837968294200000),
  (2830764152838117578133719187410789000000, 367563462923717285726032224241681700000),
  (3205137797602824933716411892717328000000, 380768317742231980329967705522363000000),
  (3591455951049173693199429642906499000000, 391439223291054740376877016678681700000),
  (3987147730539416483980111092426964000000, 399505166217639107930138419625928700000),
  (4389579873310662900651938093352965000000, 404912468852985503116347349745290900000),
  (4796074260477108800433417838351075000000, 407625146401928933496093849429150200000),
  (5203925739522891199566582161648924000000, 407625146401928933496093849429150200000),
  (5610420126689337099348061906647035000000, 404912468852985503116347349745290900000),
  (6012852269460583516019888907573036000000, 399505166217639107930138419625928700000),
  (6408544048950826306800570357093501000000, 391439223291054740376877016678681700000),
  (6794862202397175066283588107282672000000, 380768317742231980329967705522363000000),
  (7169235847161882421866280812589211000000, 367563462923717285726032224241681700000),
  (7529173589639655516202668582338260000000, 351912535334494773696414837968294200000),
  (7872280105239035405664637504622363000000, 333919689895702059675230757645096500000),
  (8196272079148408535901724347501302000000, 313704666960665270264848357625685200000),
  (8498993401895921779564129203137079000000, 291401995734986030111529341290700300000),
  (8778429518769853403688690483896937000000, 267160099551661599868784953156243600000),
  (9032720838026584077757826879898492000000, 241140309303793416871760899557100700000),
  (9260175109661810944298248556236381000000, 213515792523372171179392171794038600000),
  (9459278695023161083974685159869588000000, 184470407970123690824700811684075200000),
  (9628706660242921984125547811065255000000, 154197502725875273293655431566543100000),
  (9767331654667647978352710765587206000000, 122898698691161879476006027233530900000),
  (9874231642950767538204427704731942000000, 90782888548066184494380628773911090000),
  (9948697271331927859722129455528396000000, 58067223582343370888341506002186960000),
  (9990249652678438099064235382757905000000, 25014403748196728379497710459496520000)]

/-- n = 39. quadrature_lib.cpp:777-815. -/
def b39 : List (Nat × Nat) := [
  (9263084667835469972638485740897880000, 23764723458175506853881065774534860000),
  (48742315726570081801124413764609000000, 55173944695822971213384027260886320000),
  (119506453332644730775748400552407300000, 86281145468624595204027355916775680000),
  (221123938376738614445540514044589000000, 116846924160890822973561722214623200000),
  (352954257566308851510915178211327200000, 146674779919516892960779931781257000000),
  (514164403535035560758544545695931700000, 175575557490656653805325926486164000000),
  (703735310000469230431012804369788400000, 203366384239669219695282780411307300000),
  (920468512849284478233836607951850900000, 229871505544583159420883196996163700000),
  (1162993785344682500838637978858285000000, 254923326460647026070105168382906300000),
  (1429777820527326604330664819240846000000, 278363451704581499536955698948407200000),
  (1719133932839945446327870325118719000000, 300043680442980747874708867744097200000),
  (2029232725213610056535549626904469000000, 319826940693411944933532022050318300000),
  (2358113656697812630518281820958887000000, 337588154831156326815106640232243300000),
  (2703697438454319756683766834452138000000, 353215029853043803850574657640655600000),
  (3063799180142192720730590171815187000000, 366608767071343086905769664325241200000),
  (3436142203759070387320015441071856000000, 377684686614180288523922234954046900000),
  (3818372437690821163319968363336748000000, 386372762723410083642558183665586700000),
  (4208073300010811000386494693193003000000, 392618066436855883625316504927616900000),
  (4602780976956222612090414584036797000000, 396381112841842355050778858772539100000),
  (5000000000000000000000000000000000000000, 397638110697214262087090983029255000000),
  (5397219023043777387909585415963203000000, 396381112841842355050778858772539100000),
  (5791926699989188999613505306806997000000, 392618066436855883625316504927616900000),
  (6181627562309178836680031636663252000000, 386372762723410083642558183665586700000),
  (6563857796240929612679984558928144000000, 377684686614180288523922234954046900000),
  (6936200819857807279269409828184813000000, 366608767071343086905769664325241200000),
  (7296302561545680243316233165547862000000, 353215029853043803850574657640655600000),
  (7641886343302187369481718179041113000000, 337588154831156326815106640232243300000),
  (7970767274786389943464450373095531000000, 319826940693411944933532022050318300000),
  (8280866067160054553672129674881281000000, 300043680442980747874708867744097200000),
  (8570222179472673395669335180759155000000, 278363451704581499536955698948407200000),
  (8837006214655317499161362021141715000000, 254923326460647026070105168382906300000),
  (9079531487150715521766163392048149000000, 229871505544583159420883196996163700000),
  (9296264689999530769568987195630212000000, 203366384239669219695282780411307300000),
  (9485835596464964439241455454304069000000, 175575557490656653805325926486164000000),
  (9647045742433691148489084821788673000000, 146674779919516892960779931781257000000),
  (9778876061623261385554459485955411000000, 116846924160890822973561722214623200000),
  (9880493546667355269224251599447593000000, 86281145468624595204027355916775680000),
  (9951257684273429918198875586235391000000, 55173944695822971213384027260886320000),
  (9990736915332164530027361514259102000000, 23764723458175506853881065774534860000)]

/-- n = 40. quadrature_lib.cpp:816-855. -/
def b40 : List (Nat × Nat) := [
  (8811451447203998251886487897067687000, 22606385492665956292358664390926500000),
  (46368806502714967734728238893139010000, 52491422655764068073710855336398070000),
  (113700250081128686683148581435481100000, 82105291909539443564317424411819210000),
  (210415903931041720977295002736203200000, 111229245970834786307521620921043000000),
  (335935958606617333195739165773971300000, 139685034900117005492445787538605000000),
  (489505965155628516358733345657534300000, 167300976412739236963390915432053700000),
  (670202483938702480896090958226900300000, 193910839872360088199860156452231200000),
  (876938845833441684018398846669506200000, 219354540928366359958373430208577400000),
  (1108471742867403061525142272467526000000, 243479038175361160307170802240732000000),
  (1363408724050364483595017741225347000000, 266139234919684121774982398861303000000),
  (1640216576929102258103227425192529000000, 287198845496957756833088654552129900000),
  (1937230551660098810236937748846526000000, 306531212464644695832689982041992600000),
  (2252664374524358989620343472352410000000, 324020067283005190372772647833763600000),
  (2584620991569106435457167128775885000000, 339560229076169519128450541159620000000),
  (2931103978141974992375601270981431000000, 353058236956433898477418154276434000000),
  (3290029545871207634962537594104028000000, 364432911979020295302553417212588900000),
  (3659239074963731594294078275957019000000, 373615845289841321000946681306623200000),
  (4036512096493144501422415739674251000000, 380551809503131211857790379612474400000),
  (4419579646623723957582743577959879000000, 385199090821239827941537671419051600000),
  (4806137912469745890334032779876884000000, 387529739892124056318619814791631300000),
  (5193862087530254109665967220123117000000, 387529739892124056318619814791631300000),
  (5580420353376276042417256422040121000000, 385199090821239827941537671419051600000),
  (5963487903506855498577584260325749000000, 380551809503131211857790379612474400000),
  (6340760925036268405705921724042981000000, 373615845289841321000946681306623200000),
  (6709970454128792365037462405895972000000, 364432911979020295302553417212588900000),
  (7068896021858025007624398729018569000000, 353058236956433898477418154276434000000),
  (7415379008430893564542832871224115000000, 339560229076169519128450541159620000000),
  (7747335625475641010379656527647590000000, 324020067283005190372772647833763600000),
  (8062769448339901189763062251153474000000, 306531212464644695832689982041992600000),
  (8359783423070897741896772574807471000000, 287198845496957756833088654552129900000),
  (8636591275949635516404982258774653000000, 266139234919684121774982398861303000000),
  (8891528257132596938474857727532475000000, 243479038175361160307170802240732000000),
  (9123061154166558315981601153330494000000, 219354540928366359958373430208577400000),
  (9329797516061297519103909041773099000000, 193910839872360088199860156452231200000),
  (9510494034844371483641266654342466000000, 167300976412739236963390915432053700000),
  (9664064041393382666804260834226029000000, 139685034900117005492445787538605000000),
  (9789584096068958279022704997263797000000, 111229245970834786307521620921043000000),
  (9886299749918871313316851418564519000000, 82105291909539443564317424411819210000),
  (9953631193497285032265271761106861000000, 52491422655764068073710855336398070000),
  (9991188548552796001748113512102932000000, 22606385492665956292358664390926500000)]

/-- n = 41. quadrature_lib.cpp:856-896. -/
def b41 : List (Nat × Nat) := [
  (8392057126142792404057459558112082000, 21530701790824438420022389523272010000),
  (44164451504918458749205527134151460000, 49999693869529726692481483148493850000),
  (108306632194583077654146466630164100000, 78224692039092942654134222397668110000),
  (200465541348268869502791519656567300000, 106005316843897765378485167466883200000),
  (320115062510730871588408623576168500000, 133179496035552227337742876293566800000),
  (466570276209494135208297933846385000000, 159591058658496408935334734285728000000),
  (638992441537792955831647128828352900000, 185088583517539942176306257900803900000),
  (836393997993193343778636104757281000000, 209525975979548447146701371555244500000),
  (1057644274762953136318891092666148000000, 232763241845071710303782934323057100000),
  (1301475984650369094699156277657205000000, 254667271473087473905851785578443100000),
  (1566492489825243552076980717354326000000, 275112596212893709400734050857112300000),
  (1851175804639018397556754541524482000000, 293982104749359724955929266903671300000),
  (2153895291948920651726263923585099000000, 311167712904831582357867085416732600000),
  (2472917004002969836458319648986526000000, 326570982267637052180818563268981700000),
  (2806413614742964557414400716359804000000, 340103683804383833677666198631245000000),
  (3152474886797592792858165433500324000000, 351688303104087487408294949849406800000),
  (3509118613290875670385085597605379000000, 361258484305115366981731991743936500000),
  (3874301971832886121971068716722639000000, 368759410136117349696404091624243500000),
  (4245933225680039182128110160577088000000, 374148115881107759456525363167526800000),
  (4621883705054185015381169031743999000000, 377393735463579120136235313373083300000),
  (5000000000000000000000000000000000000000, 378477678236491861593899805381801300000),
  (5378116294945814984618830968256002000000, 377393735463579120136235313373083300000),
  (5754066774319960817871889839422912000000, 374148115881107759456525363167526800000),
  (6125698028167113878028931283277361000000, 368759410136117349696404091624243500000),
  (6490881386709124329614914402394621000000, 361258484305115366981731991743936500000),
  (6847525113202407207141834566499676000000, 351688303104087487408294949849406800000),
  (7193586385257035442585599283640196000000, 340103683804383833677666198631245000000),
  (7527082995997030163541680351013473000000, 326570982267637052180818563268981700000),
  (7846104708051079348273736076414902000000, 311167712904831582357867085416732600000),
  (8148824195360981602443245458475517000000, 293982104749359724955929266903671300000),
  (8433507510174756447923019282645674000000, 275112596212893709400734050857112300000),
  (8698524015349630905300843722342795000000, 254667271473087473905851785578443100000),
  (8942355725237046863681108907333852000000, 232763241845071710303782934323057100000),
  (9163606002006806656221363895242719000000, 209525975979548447146701371555244500000),
  (9361007558462207044168352871171648000000, 185088583517539942176306257900803900000),
  (9533429723790505864791702066153615000000, 159591058658496408935334734285728000000),
  (9679884937489269128411591376423831000000, 133179496035552227337742876293566800000),
  (9799534458651731130497208480343433000000, 106005316843897765378485167466883200000),
  (9891693367805416922345853533369835000000, 78224692039092942654134222397668110000),
  (9955835548495081541250794472865849000000, 49999693869529726692481483148493850000),
  (9991607942873857207595942540441888000000, 21530701790824438420022389523272010000)]

/-- n = 42. quadrature_lib.cpp:897-938. -/
def b42 : List (Nat × Nat) := [
  (8001905049687924885659365764748410000, 20529993023245423053013897484179280000),
  (42113558295695401038193733595656000000, 47681101508742512059100501463490100000),
  (103287459681259031455087167285719500000, 74612218486787470723388390529328830000),
  (191203173308977556265364210733386400000, 101139347845263223785278595396770900000),
  (305382213225059107334132831872040100000, 127114797630565239433712214547154100000),
  (445201375479362737080760603957467300000, 152396203498017341814523667616962100000),
  (609897150939136286440074482606882100000, 176845355487960554163310905632538000000),
  (798570083690915495372800024569500900000, 200328675903461308802980624150185100000),
  (1010189733722562933836470237268117000000, 222717888859829389371581829926170700000),
  (1243600321552597552157639120426707000000, 243890703964016225137246815642013800000),
  (1497527047219143931292150354722672000000, 263731478495870351719712695220487200000),
  (1770583055653760830212518481407942000000, 282131846790091908232134275698478500000),
  (2061277012574453385796443272630021000000, 298991311137933271564157728767674000000),
  (2368021250344038562035662206040493000000, 314217790225012882046591256618899700000),
  (2689140439647890351204624850346820000000, 327728121824544894635025539258972400000),
  (3022880739785124711614530227028140000000, 339448516882609724276817011068831700000),
  (3367419377672942439014217053122671000000, 349314962462970798830773931907410900000),
  (3720874603285604580167926044906458000000, 357273571325854914609052220587311000000),
  (4081315967175727245736221803096285000000, 363280876219020524439528807462665300000),
  (4446774863957400658254387274986795000000, 367304067267337641320141285271519900000),
  (4815255284173241120934520099812203000000, 369321171160864399981927805748956800000),
  (5184744715826758879065479900187798000000, 369321171160864399981927805748956800000),
  (5553225136042599341745612725013205000000, 367304067267337641320141285271519900000),
  (5918684032824272754263778196903715000000, 363280876219020524439528807462665300000),
  (6279125396714395419832073955093542000000, 357273571325854914609052220587311000000),
  (6632580622327057560985782946877329000000, 349314962462970798830773931907410900000),
  (6977119260214875288385469772971860000000, 339448516882609724276817011068831700000),
  (7310859560352109648795375149653180000000, 327728121824544894635025539258972400000),
  (7631978749655961437964337793959507000000, 314217790225012882046591256618899700000),
  (7938722987425546614203556727369979000000, 298991311137933271564157728767674000000),
  (8229416944346239169787481518592058000000, 282131846790091908232134275698478500000),
  (8502472952780856068707849645277327000000, 263731478495870351719712695220487200000),
  (8756399678447402447842360879573294000000, 243890703964016225137246815642013800000),
  (8989810266277437066163529762731884000000, 222717888859829389371581829926170700000),
  (9201429916309084504627199975430499000000, 200328675903461308802980624150185100000),
  (9390102849060863713559925517393118000000, 176845355487960554163310905632538000000),
  (9554798624520637262919239396042533000000, 152396203498017341814523667616962100000),
  (9694617786774940892665867168127960000000, 127114797630565239433712214547154100000),
  (9808796826691022443734635789266614000000, 101139347845263223785278595396770900000),
  (9896712540318740968544912832714280000000, 74612218486787470723388390529328830000),
  (9957886441704304598961806266404344000000, 47681101508742512059100501463490100000),
  (9991998094950312075114340634235252000000, 20529993023245423053013897484179280000)]

/-- n = 43. quadrature_lib.cpp:939-981. -/
def b43 : List (Nat × Nat) := [
  (7638338787461432411819063408038143000, 19597451269220636414835825962882420000),
  (40202212033779267896408293351909990000, 45519983187007016594343041479484100000),
  (98608895098723342472353089094318210000, 71243782157882430542708008610021260000),
  (182566934929600032949025182128780400000, 96599507118419501980623054460356710000),
  (291640215761810690907613048010308500000, 121452283069194079510091621271246500000),
  (425260463969306352719485646003571900000, 145672066307492474579702124128906300000),
  (582731173906915683311609941789163000000, 169132460434301461724842378769010000000),
  (763231418953424755004569570891037600000, 191711110970663287860642123314245900000),
  (965820179315306823604626295612439400000, 213290285989910418819036026692569600000),
  (1189441264025224392698357684854769000000, 233757473771732900053233831685514900000),
  (1432928823655214725740395610045480000000, 253005963921950782619251994765073800000),
  (1695013431242509334174326181293273000000, 270935401594408934316865891631327000000),
  (1974328701801995321374584644380224000000, 287452309784552597138044584222082400000),
  (2269418416699576404297974764101696000000, 302470576249956472598393709956813900000),
  (2578744116071326379651832826257431000000, 315911902246980561628149088867041500000),
  (2900693119853653737563603027197160000000, 327706210631613987456168821246039200000),
  (3233586935678480966772618179282661000000, 337792011146825845962039523781327900000),
  (3575690009835431864471385525808310000000, 346116720968283421411497395613175600000),
  (3925218775697408954925608092631625000000, 352636938825425140631431777389704000000),
  (4280350952446433446148500311946277000000, 357318671262570706487905588514551100000),
  (4639235045627068822888363745222194000000, 360137509857109871726537758354285300000),
  (5000000000000000000000000000000000000000, 361078758468994939887311658568684400000),
  (5360764954372931177111636254777805000000, 360137509857109871726537758354285300000),
  (5719649047553566553851499688053723000000, 357318671262570706487905588514551100000),
  (6074781224302591045074391907368374000000, 352636938825425140631431777389704000000),
  (6424309990164568135528614474191690000000, 346116720968283421411497395613175600000),
  (6766413064321519033227381820717339000000, 337792011146825845962039523781327900000),
  (7099306880146346262436396972802840000000, 327706210631613987456168821246039200000),
  (7421255883928673620348167173742569000000, 315911902246980561628149088867041500000),
  (7730581583300423595702025235898304000000, 302470576249956472598393709956813900000),
  (8025671298198004678625415355619775000000, 287452309784552597138044584222082400000),
  (8304986568757490665825673818706727000000, 270935401594408934316865891631327000000),
  (8567071176344785274259604389954520000000, 253005963921950782619251994765073800000),
  (8810558735974775607301642315145230000000, 233757473771732900053233831685514900000),
  (9034179820684693176395373704387561000000, 213290285989910418819036026692569600000),
  (9236768581046575244995430429108962000000, 191711110970663287860642123314245900000),
  (9417268826093084316688390058210837000000, 169132460434301461724842378769010000000),
  (9574739536030693647280514353996429000000, 145672066307492474579702124128906300000),
  (9708359784238189309092386951989692000000, 121452283069194079510091621271246500000),
  (9817433065070399967050974817871220000000, 96599507118419501980623054460356710000),
  (9901391104901276657527646910905682000000, 71243782157882430542708008610021260000),
  (9959797787966220732103591706648090000000, 45519983187007016594343041479484100000),
  (9992361661212538567588180936591962000000, 19597451269220636414835825962882420000)]

/-- n = 44. quadrature_lib.cpp:982-1025. -/
def b44 : List (Nat × Nat) := [
  (7298996816128875319716396966748276000, 18727024015563887575868894158807970000),
  (38418039307420957583309981932307020000, 43502406837624220612828117121566040000),
  (94240834610430166686254973247560850000, 68097933777899927601025331950306790000),
  (174501747887534303028009747098825000000, 92357408684073745860211118716999100000),
  (278802454409029503983726734865053900000, 116157409510096053144791314693657800000),
  (406623700079121128384994566528739800000, 139378914106405050405571458896935300000),
  (557328808569783988308160449048388500000, 161906114060349104404234697700558100000),
  (730167024976448106358488793536580700000, 183626739069044368214546461743509000000),
  (924277301774324947562811821240297200000, 204432561551731094542235846415341900000),
  (1138692603756220504911207253840060000000, 224219920409850157231215932015255600000),
  (1372344731696414986965175316400232000000, 242890232241760187638197183456463600000),
  (1624069646669388173331504807180500000000, 260350480458522309406159014965993700000),
  (1892613270482120760987876504391166000000, 276513677818640262743733163215764600000),
  (2176637734072646157876815903089624000000, 291299299387977476671053449221386300000),
  (2474728043058988410086008238544114000000, 304633683507809840192789184371870600000),
  (2785399127372942580825867031763432000000, 316450398666019274750694355098575100000),
  (3107103239926464337441176636139011000000, 326690574395907174921204474228111400000),
  (3438237667486070938817274182135108000000, 335303194531468261978524596758596400000),
  (3777152715358993742463487826297407000000, 342245351346833304927293303521749600000),
  (4122159926122416071267461253095117000000, 347482459307862890185420454625056500000),
  (4471540491456733764413470755424391000000, 350988427367791062935710209721996800000),
  (4823553815179323204709016476842918000000, 352745788946770344056691437401499700000),
  (5176446184820676795290983523157082000000, 352745788946770344056691437401499700000),
  (5528459508543266235586529244575609000000, 350988427367791062935710209721996800000),
  (5877840073877583928732538746904883000000, 347482459307862890185420454625056500000),
  (6222847284641006257536512173702593000000, 342245351346833304927293303521749600000),
  (6561762332513929061182725817864892000000, 335303194531468261978524596758596400000),
  (6892896760073535662558823363860989000000, 326690574395907174921204474228111400000),
  (7214600872627057419174132968236568000000, 316450398666019274750694355098575100000),
  (7525271956941011589913991761455887000000, 304633683507809840192789184371870600000),
  (7823362265927353842123184096910376000000, 291299299387977476671053449221386300000),
  (8107386729517879239012123495608834000000, 276513677818640262743733163215764600000),
  (8375930353330611826668495192819499000000, 260350480458522309406159014965993700000),
  (8627655268303585013034824683599768000000, 242890232241760187638197183456463600000),
  (8861307396243779495088792746159941000000, 224219920409850157231215932015255600000),
  (9075722698225675052437188178759703000000, 204432561551731094542235846415341900000),
  (9269832975023551893641511206463419000000, 183626739069044368214546461743509000000),
  (9442671191430216011691839550951611000000, 161906114060349104404234697700558100000),
  (9593376299920878871615005433471260000000, 139378914106405050405571458896935300000),
  (9721197545590970496016273265134946000000, 116157409510096053144791314693657800000),
  (9825498252112465696971990252901175000000, 92357408684073745860211118716999100000),
  (9905759165389569833313745026752439000000, 68097933777899927601025331950306790000),
  (9961581960692579042416690018067693000000, 43502406837624220612828117121566040000),
  (9992701003183871124680283603033252000000, 18727024015563887575868894158807970000)]

/-- n = 45. quadrature_lib.cpp:1026-1070. -/
def b45 : List (Nat × Nat) := [
  (6981774090316809217261615495897248000, 17913315776417794655715143296757130000),
  (36750007763981291256914397011323140000, 41615946481091208228679265611168820000),
  (90156424827297158803407631828292800000, 65155524957913921603155412348434840000),
  (166958448015526976317874195537609600000, 88387676289687953085462733347885080000),
  (266791545021854691076397015230814400000, 111199237752893661969753792760844900000),
  (389180316404998059512663195197363300000, 133481069837888324028373893965538200000),
  (533541641233791307676754742534713400000, 155126874672577335812539694468840400000),
  (699187620196678873304605647164328100000, 176033461008045081238498991307875500000),
  (885328897489568314821123699867489900000, 196101183646512237820935926719646400000),
  (1091078437030468543438184059506986000000, 215234403545824855758455565405834500000),
  (1315455755272548236881305757025540000000, 233341938591866826338842378708269800000),
  (1557391596143997373839900870597809000000, 250337496189760148995660512374371800000),
  (1815733027733883203643880770483084000000, 266140083656344759729520220096551700000),
  (2089248937153234066595163327779114000000, 280674393798932383219619701874348800000),
  (2376635897685419664544329497699188000000, 293871163594208692871807588159157700000),
  (2676524380401824507101992488451257000000, 305667504155332612509431852681628000000),
  (2987485280707290429610127457258268000000, 316007200369099688749818651453334400000),
  (3308036728746989191782979499840635000000, 324840978753617154269132851795378800000),
  (3636651151238112196956173041921774000000, 332126742249212640414573578195518600000),
  (3971762551083681271401063872642280000000, 337829770818037681354551119368243500000),
  (4311773970083734856217049792884672000000, 341922886893348372658460496671580700000),
  (4655065099184279137547926929480941000000, 344386584888306614410014241490279100000),
  (5000000000000000000000000000000000000000, 345209124146160100553992775797023700000),
  (5344934900815720862452073070519059000000, 344386584888306614410014241490279100000),
  (5688226029916265143782950207115328000000, 341922886893348372658460496671580700000),
  (6028237448916318728598936127357720000000, 337829770818037681354551119368243500000),
  (6363348848761887803043826958078226000000, 332126742249212640414573578195518600000),
  (6691963271253010808217020500159365000000, 324840978753617154269132851795378800000),
  (7012514719292709570389872542741732000000, 316007200369099688749818651453334400000),
  (7323475619598175492898007511548743000000, 305667504155332612509431852681628000000),
  (7623364102314580335455670502300812000000, 293871163594208692871807588159157700000),
  (7910751062846765933404836672220886000000, 280674393798932383219619701874348800000),
  (8184266972266116796356119229516916000000, 266140083656344759729520220096551700000),
  (8442608403856002626160099129402191000000, 250337496189760148995660512374371800000),
  (8684544244727451763118694242974460000000, 233341938591866826338842378708269800000),
  (8908921562969531456561815940493014000000, 215234403545824855758455565405834500000),
  (9114671102510431685178876300132511000000, 196101183646512237820935926719646400000),
  (9300812379803321126695394352835672000000, 176033461008045081238498991307875500000),
  (9466458358766208692323245257465287000000, 155126874672577335812539694468840400000),
  (9610819683595001940487336804802636000000, 133481069837888324028373893965538200000),
  (9733208454978145308923602984769186000000, 111199237752893661969753792760844900000),
  (9833041551984473023682125804462390000000, 88387676289687953085462733347885080000),
  (9909843575172702841196592368171707000000, 65155524957913921603155412348434840000),
  (9963249992236018708743085602988677000000, 41615946481091208228679265611168820000),
  (9993018225909683190782738384504103000000, 17913315776417794655715143296757130000)]

/-- n = 46. quadrature_lib.cpp:1071-1116. -/
def b46 : List (Nat × Nat) := [
  (6684789330910094358657913045556041000, 17151504340535241430093915740216990000),
  (35188255469128179634522776669033110000, 39849491148623112258065194631624820000),
  (86331650979165682610102101704056280000, 62399418854943421033672858754916990000),
  (159893040730040286311259668140922600000, 84667570039181190231153568358802090000),
  (255538182769551021888932302815429300000, 106549993770682505272396805354392300000),
  (372831005966230245112543211504379000000, 127946431985650053173497561001720100000),
  (511236442330290171493400243401093700000, 148759147761013778995258646178615300000),
  (670123025665709685420556115917007600000, 168893139995534482603019469405726600000),
  (848765814669669734838073476045969400000, 188256526786930356638303996142295400000),
  (1046349714623628724054279262898488000000, 206760950548393648521100879351156900000),
  (1261973201921669729998317473659985000000, 224321976386590633835473067813874300000),
  (1494652439897971512439389552867498000000, 240859475508561002652344316116104400000),
  (1743325768990011424467614220915703000000, 256297990035715106676826496857240300000),
  (2006858551436424234114137331999163000000, 270567076929283772458188216296115300000),
  (2284048348690986823645186544855616000000, 283601629219956179084372018016433700000),
  (2573630408059176686138399031457726000000, 295342172977731574037753613184538500000),
  (2874283433585858013389265682857163000000, 305735138623252405076783039520955200000),
  (3184635614895021449381465107426741000000, 314733105321972540894759761235554800000),
  (3503270886490649922582803717110481000000, 322295017335695347941397195541275200000),
  (3828735388968651156869719422131037000000, 328386371338906036893787828427778700000),
  (4159544102664482356966016312861489000000, 332979373842274436878809832113668900000),
  (4494187623472078802420701714956753000000, 336053068003390879311870774135487800000),
  (4831139049919739792402210840542801000000, 337593429245182294101070945821505200000),
  (5168860950080260207597789159457199000000, 337593429245182294101070945821505200000),
  (5505812376527921197579298285043247000000, 336053068003390879311870774135487800000),
  (5840455897335517643033983687138511000000, 332979373842274436878809832113668900000),
  (6171264611031348843130280577868963000000, 328386371338906036893787828427778700000),
  (6496729113509350077417196282889519000000, 322295017335695347941397195541275200000),
  (6815364385104978550618534892573259000000, 314733105321972540894759761235554800000),
  (7125716566414141986610734317142837000000, 305735138623252405076783039520955200000),
  (7426369591940823313861600968542274000000, 295342172977731574037753613184538500000),
  (7715951651309013176354813455144384000000, 283601629219956179084372018016433700000),
  (7993141448563575765885862668000837000000, 270567076929283772458188216296115300000),
  (8256674231009988575532385779084297000000, 256297990035715106676826496857240300000),
  (8505347560102028487560610447132502000000, 240859475508561002652344316116104400000),
  (8738026798078330270001682526340014000000, 224321976386590633835473067813874300000),
  (8953650285376371275945720737101512000000, 206760950548393648521100879351156900000),
  (9151234185330330265161926523954031000000, 188256526786930356638303996142295400000),
  (9329876974334290314579443884082992000000, 168893139995534482603019469405726600000),
  (9488763557669709828506599756598907000000, 148759147761013778995258646178615300000),
  (9627168994033769754887456788495621000000, 127946431985650053173497561001720100000),
  (9744461817230448978111067697184571000000, 106549993770682505272396805354392300000),
  (9840106959269959713688740331859078000000, 84667570039181190231153568358802090000),
  (9913668349020834317389897898295943000000, 62399418854943421033672858754916990000),
  (9964811744530871820365477223330966000000, 39849491148623112258065194631624820000),
  (9993315210669089905641342086954444000000, 17151504340535241430093915740216990000)]

/-- n = 47. quadrature_lib.cpp:1117-1163. -/
def b47 : List (Nat × Nat) := [
  (6406357078939454080261426064457754000, 16437269212640074416249821041680960000),
  (33723945061156826539051576837682170000, 38193081479244168070521783855658690000),
  (82744984641881456175494829819150590000, 59814242321561604819717274249742300000),
  (153266063367177514271278612198646200000, 81176665732165298353628437039492660000),
  (244980153711457787050985380742788000000, 102184690738342138210173803431277000000),
  (357486534938196759014075376943395300000, 122746058298294092689170785762528400000),
  (490293352807373215664143490112821800000, 142770753503216932523699623129055300000),
  (642819921015518415295072677221969000000, 162171177575923783838087315870850200000),
  (814399300500489393612005257168238000000, 180862482920874758067299648831556000000),
  (1004281229161290285422189653982035000000, 198762930612655018904506900709805200000),
  (1211635407772806832130017382151589000000, 215794243242397691341508967232515700000),
  (1435555132954678491690603361144906000000, 231881945432529556022009241213725500000),
  (1675061263048336354316486757139555000000, 246955688736805848022852429310024700000),
  (1929106500218131957022687286978732000000, 260949558900285724361059708548380200000),
  (2196579970326679027584708412908656000000, 273802363907651129785625884442524500000),
  (2476312080682110401128554873243494000000, 285457901466157701110083026541913800000),
  (2767079634475721486374089288252960000000, 295865204711694379880772781928706600000),
  (3067611179576664302083488061969884000000, 304978765043698226653552890667187400000),
  (3376592568311320488946193504100015000000, 312758731104608313202821907249767900000),
  (3692672703925127148465085168974145000000, 319171083028585153156468899279067500000),
  (4014469448604440960192543208147477000000, 324187781194728633513019695554029500000),
  (4340575667227425514730882346379364000000, 327786888832748701255715011630379600000),
  (4669565380418221624197631112629331000000, 329952667944052372667853276652491200000),
  (5000000000000000000000000000000000000000, 330675648118277398267201771655274800000),
  (5330434619581778375802368887370669000000, 329952667944052372667853276652491200000),
  (5659424332772574485269117653620636000000, 327786888832748701255715011630379600000),
  (5985530551395559039807456791852523000000, 324187781194728633513019695554029500000),
  (6307327296074872851534914831025855000000, 319171083028585153156468899279067500000),
  (6623407431688679511053806495899985000000, 312758731104608313202821907249767900000),
  (6932388820423335697916511938030117000000, 304978765043698226653552890667187400000),
  (7232920365524278513625910711747040000000, 295865204711694379880772781928706600000),
  (7523687919317889598871445126756506000000, 285457901466157701110083026541913800000),
  (7803420029673320972415291587091344000000, 273802363907651129785625884442524500000),
  (8070893499781868042977312713021268000000, 260949558900285724361059708548380200000),
  (8324938736951663645683513242860446000000, 246955688736805848022852429310024700000),
  (8564444867045321508309396638855094000000, 231881945432529556022009241213725500000),
  (8788364592227193167869982617848411000000, 215794243242397691341508967232515700000),
  (8995718770838709714577810346017965000000, 198762930612655018904506900709805200000),
  (9185600699499510606387994742831762000000, 180862482920874758067299648831556000000),
  (9357180078984481584704927322778031000000, 162171177575923783838087315870850200000),
  (9509706647192626784335856509887178000000, 142770753503216932523699623129055300000),
  (9642513465061803240985924623056604000000, 122746058298294092689170785762528400000),
  (9755019846288542212949014619257213000000, 102184690738342138210173803431277000000),
  (9846733936632822485728721387801353000000, 81176665732165298353628437039492660000),
  (9917255015358118543824505170180849000000, 59814242321561604819717274249742300000),
  (9966276054938843173460948423162318000000, 38193081479244168070521783855658690000),
  (9993593642921060545919738573935542000000, 16437269212640074416249821041680960000)]

/-- n = 48. quadrature_lib.cpp:1164-1211. -/
def b48 : List (Nat × Nat) := [
  (6144963737869406997292542184431495000, 15766730261529193163386557719456560000),
  (32349138668246212260356245754629320000, 36637769506381310511919898108932100000),
  (79377081385865711277081999867005930000, 57386172896172697447963338045458620000),
  (147042037268763747692940080996699500000, 77896578614719243640884779172301520000),
  (235061484197845696385196669871408400000, 98080802286777639072303598261064080000),
  (343066546467228334429128099491993800000, 117853804196621895702596506892247200000),
  (470604316422151635889625821644940900000, 137132548541784741000369181312529200000),
  (617139898628760570471532225974516200000, 155836139163990444510328784231771600000),
  (782058691878032346444550777401720000000, 173886112823852194462742929819012100000),
  (964668979852786864587234784877307800000, 191206755329153531586086282618578300000),
  (1164204837421298303730722812385155000000, 207725414717323746070294111805323600000),
  (1379829345380926726627588832531674000000, 223372804283471402097242935629252000000),
  (1610638101836680473940743596620455000000, 238083292462452374129533117394649200000),
  (1855663016117431880024175334650027000000, 251795177769272374789038095439327800000),
  (2113876369580136480910953807297606000000, 264450947425968335477525281323494500000),
  (2384195126388834831608870654312457000000, 275997518499920814341017475958177400000),
  (2665485476245207977275355691746008000000, 286386460502016078525751173423503100000),
  (2956567590046416350418872520926834000000, 295574198491978178732374087167599700000),
  (3256220568539196309200910313647961000000, 303522195829469400264846160139102600000),
  (3563187563222722116320567693416011000000, 310197115799463319520988920687993000000),
  (3876181048026554693875672799126538000000, 315570961431270128285630113751166700000),
  (4193888219655541409717813046082511000000, 319621192923240933119531009127577300000),
  (4514976503952686505349730220731878000000, 322330822179750411032520968288525500000),
  (4838099145185653189833388784239328000000, 323688484063419612515124693682957700000),
  (5161900854814346810166611215760672000000, 323688484063419612515124693682957700000),
  (5485023496047313494650269779268123000000, 322330822179750411032520968288525500000),
  (5806111780344458590282186953917489000000, 319621192923240933119531009127577300000),
  (6123818951973445306124327200873462000000, 315570961431270128285630113751166700000),
  (6436812436777277883679432306583989000000, 310197115799463319520988920687993000000),
  (6743779431460803690799089686352039000000, 303522195829469400264846160139102600000),
  (7043432409953583649581127479073166000000, 295574198491978178732374087167599700000),
  (7334514523754792022724644308253992000000, 286386460502016078525751173423503100000),
  (7615804873611165168391129345687542000000, 275997518499920814341017475958177400000),
  (7886123630419863519089046192702394000000, 264450947425968335477525281323494500000),
  (8144336983882568119975824665349974000000, 251795177769272374789038095439327800000),
  (8389361898163319526059256403379546000000, 238083292462452374129533117394649200000),
  (8620170654619073273372411167468326000000, 223372804283471402097242935629252000000),
  (8835795162578701696269277187614845000000, 207725414717323746070294111805323600000),
  (9035331020147213135412765215122692000000, 191206755329153531586086282618578300000),
  (9217941308121967653555449222598280000000, 173886112823852194462742929819012100000),
  (9382860101371239429528467774025484000000, 155836139163990444510328784231771600000),
  (9529395683577848364110374178355059000000, 137132548541784741000369181312529200000),
  (9656933453532771665570871900508007000000, 117853804196621895702596506892247200000),
  (9764938515802154303614803330128592000000, 98080802286777639072303598261064080000),
  (9852957962731236252307059919003300000000, 77896578614719243640884779172301520000),
  (9920622918614134288722918000132995000000, 57386172896172697447963338045458620000),
  (9967650861331753787739643754245371000000, 36637769506381310511919898108932100000),
  (9993855036262130593002707457815569000000, 15766730261529193163386557719456560000)]

/-- n = 49. quadrature_lib.cpp:1212-1260. -/
def b49 : List (Nat × Nat) := [
  (5899246966823103190843636479446535000, 15136394944614525387403490879135580000),
  (31056690279161046199430703710232120000, 35175497950432257367253391556741840000),
  (76210520428934978203505023157126380000, 55102755157967902487541440834166730000),
  (141188995492223099300137892476129500000, 74810724678123255147921595601007230000),
  (225731706629313832223781601659078100000, 94217979265447292222253266955537080000),
  (329498526220949254705087696817275300000, 113246007937233382493854821080214800000),
  (452071720859633573934901798220999600000, 131818094635330084804728726198709900000),
  (592957772134955449814842320914975500000, 149859423102919126753452790370736700000),
  (751589400779171494825590638785103400000, 167297333958110871712435754458446400000),
  (927327863200722842302496061176114800000, 184061604815003449097336183494411400000),
  (1119465528272766824909285938757720000000, 200084728831865106843025183715516500000),
  (1327228728812986518931628935707376000000, 215302184906297989941727420005192300000),
  (1549780877874339432476240963625291000000, 229652696777979267712498099860638100000),
  (1786225837903811679715715257080499000000, 243078479439141201388255986439341900000),
  (2035611529455496437720678316036857000000, 255525471650722953373114030246593000000),
  (2296933765041369667208872663852821000000, 266943553541294842639714668650881400000),
  (2569140292737539789115119519707125000000, 277286748374017943452157907413490400000),
  (2851135033292117376707079290962885000000, 286513407650937377425822961754082800000),
  (3141782493688575555681327295265197000000, 294586378800136330122638253712462500000),
  (3439912339401256188960696617467919000000, 301473154765760086515530584377707600000),
  (3744324106937113632464220285876944000000, 307146004895964681484133230701505300000),
  (4053792037690932067573449130700067000000, 311582086600286337005384126079748900000),
  (4367070013651639744660073557122319000000, 314763537325978497371997778914454900000),
  (4682896575086566069855825895607575000000, 316677546482458742954184637000452700000),
  (5000000000000000000000000000000000000000, 317316407023952988591267339397648200000),
  (5317103424913433930144174104392425000000, 316677546482458742954184637000452700000),
  (5632929986348360255339926442877682000000, 314763537325978497371997778914454900000),
  (5946207962309067932426550869299932000000, 311582086600286337005384126079748900000),
  (6255675893062886367535779714123057000000, 307146004895964681484133230701505300000),
  (6560087660598743811039303382532081000000, 301473154765760086515530584377707600000),
  (6858217506311424444318672704734802000000, 294586378800136330122638253712462500000),
  (7148864966707882623292920709037115000000, 286513407650937377425822961754082800000),
  (7430859707262460210884880480292875000000, 277286748374017943452157907413490400000),
  (7703066234958630332791127336147180000000, 266943553541294842639714668650881400000),
  (7964388470544503562279321683963143000000, 255525471650722953373114030246593000000),
  (8213774162096188320284284742919501000000, 243078479439141201388255986439341900000),
  (8450219122125660567523759036374709000000, 229652696777979267712498099860638100000),
  (8672771271187013481068371064292624000000, 215302184906297989941727420005192300000),
  (8880534471727233175090714061242281000000, 200084728831865106843025183715516500000),
  (9072672136799277157697503938823885000000, 184061604815003449097336183494411400000),
  (9248410599220828505174409361214897000000, 167297333958110871712435754458446400000),
  (9407042227865044550185157679085025000000, 149859423102919126753452790370736700000),
  (9547928279140366426065098201779000000000, 131818094635330084804728726198709900000),
  (9670501473779050745294912303182725000000, 113246007937233382493854821080214800000),
  (9774268293370686167776218398340922000000, 94217979265447292222253266955537080000),
  (9858811004507776900699862107523870000000, 74810724678123255147921595601007230000),
  (9923789479571065021796494976842874000000, 55102755157967902487541440834166730000),
  (9968943309720838953800569296289767000000, 35175497950432257367253391556741840000),
  (9994100753033176896809156363520553000000, 15136394944614525387403490879135580000)]

/-- n = 50. quadrature_lib.cpp:1261-1310. -/
def b50 : List (Nat × Nat) := [
  (5667977899644749072702775128907413000, 14543112765775704792003621714277570000),
  (29840152839546437074458997896526340000, 33798995978727007513894390889925000000),
  (73229579759970588454951871837552830000, 52952741918254846317848407496205170000),
  (135678074466539631433279476968739600000, 71904113807427872096894544636622040000),
  (216945223785960285011271779216889700000, 90577803567446951756299717111773360000),
  (316716905275610331095625263637517200000, 108901215850623964907960345313451700000),
  (434607216721040534551321786141714500000, 126803367850061952200974391927213400000),
  (570160102381934756812295087666231900000, 144214967902675990149531865566162000000),
  (722851152850269576943186780326212500000, 161068641117890083240829136615019600000),
  (892089645703320258218729445630302100000, 177299178075730770803673055004879500000),
  (1077220835498003680473474018295044000000, 192843783062938376223850751181929900000),
  (1277528488869657308697318736589029000000, 207642315450738487112059894820334700000),
  (1492237656465888744552268710581721000000, 221637521694016377460111434151971000000),
  (1720517671572803196091875679981601000000, 234775256519742164828165068174938200000),
  (1961485364075248804098091018040835000000, 247004692247331574606217903757163600000),
  (2214208477426749728422385451870992000000, 258278515347905692449526479200476400000),
  (2477709275462678991742704340754294000000, 268553109444981232617293986278322700000),
  (2750968325129806054264342661108121000000, 277788724031062588117837128061347500000),
  (3032928440512174363028853730880914000000, 285949628238641918615146575329966100000),
  (3322498772902813215815058713544642000000, 293004249066112229175612183154242000000),
  (3618559031102340048361773607394349000000, 298925293521327287547882026562926200000),
  (3919963815619791215763577336914493000000, 303689854208851080158750076924054700000),
  (4225547050009270489641856895294453000000, 307279497951583318782033930419576900000),
  (4534126492199569295727748111801998000000, 309680337103416216920437548904153700000),
  (4844508308364055619438355051670254000000, 310883083276736311605165536803067000000),
  (5155491691635944380561644948329746000000, 310883083276736311605165536803067000000),
  (5465873507800430704272251888198002000000, 309680337103416216920437548904153700000),
  (5774452949990729510358143104705548000000, 307279497951583318782033930419576900000),
  (6080036184380208784236422663085507000000, 303689854208851080158750076924054700000),
  (6381440968897659951638226392605651000000, 298925293521327287547882026562926200000),
  (6677501227097186784184941286455358000000, 293004249066112229175612183154242000000),
  (6967071559487825636971146269119086000000, 285949628238641918615146575329966100000),
  (7249031674870193945735657338891879000000, 277788724031062588117837128061347500000),
  (7522290724537321008257295659245706000000, 268553109444981232617293986278322700000),
  (7785791522573250271577614548129008000000, 258278515347905692449526479200476400000),
  (8038514635924751195901908981959165000000, 247004692247331574606217903757163600000),
  (8279482328427196803908124320018399000000, 234775256519742164828165068174938200000),
  (8507762343534111255447731289418279000000, 221637521694016377460111434151971000000),
  (8722471511130342691302681263410971000000, 207642315450738487112059894820334700000),
  (8922779164501996319526525981704956000000, 192843783062938376223850751181929900000),
  (9107910354296679741781270554369697000000, 177299178075730770803673055004879500000),
  (9277148847149730423056813219673787000000, 161068641117890083240829136615019600000),
  (9429839897618065243187704912333768000000, 144214967902675990149531865566162000000),
  (9565392783278959465448678213858286000000, 126803367850061952200974391927213400000),
  (9683283094724389668904374736362483000000, 108901215850623964907960345313451700000),
  (9783054776214039714988728220783111000000, 90577803567446951756299717111773360000),
  (9864321925533460368566720523031260000000, 71904113807427872096894544636622040000),
  (9926770420240029411545048128162447000000, 52952741918254846317848407496205170000),
  (9970159847160453562925541002103474000000, 33798995978727007513894390889925000000),
  (9994332022100355250927297224871092000000, 14543112765775704792003621714277570000)]

/-- Blocks 1..50. -/
def blocks0 : List (List (Nat × Nat)) := [b1, b2, b3, b4, b5, b6, b7, b8, b9, b10, b11, b12, b13, b14, b15, b16, b17, b18, b19, b20, b21, b22, b23, b24, b25, b26, b27, b28, b29, b30, b31, b32, b33, b34, b35, b36, b37, b38, b39, b40, b41, b42, b43, b44, b45, b46, b47, b48, b49, b50]

end Qugar.GaussTable
