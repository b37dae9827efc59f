/-
GENERATED (see DESIGN.md) from cpp/qugar/quadrature_lib.cpp: rows of `TanhSinh::get_quad_data` for n = 87..100 points.
Every decimal literal of the source is written as an integer multiple of 10^(-66) (exactly, no rounding); the
rounding of the literals to `double` is not modelled.
-/
namespace Qugar.TanhSinhTable

/-- n = 87. quadrature_lib.cpp:8838-8924. -/
def b87 : List (Nat × Nat) := [
  (74610729080603893176854230448952160000, 418506252306880673274746407511099100000),
  (16090714462630495400528474302044820000000, 82785621896007348223624472944100120000000),
  (2224373095535405375176523735327336000000000, 10497242556026217217343675628937730000000000),
  (204516005806883126018262190181289700000000000, 885306631881016780021004782567584600000000000),
  (12937108300647603415235520660411330000000000000, 51370676725618516675745890785808630000000000000),
  (580796671641632561995017814911699400000000000000, 2115578337431926453608247217098740000000000000000),
  (19039679350298790118469627765868530000000000000000, 63622345820165291641757493597841880000000000000000),
  (467835162072149244683621128214900100000000000000000, 1434199322982147519108993000418290000000000000000000),
  (8825420421239550782926838305943197000000000000000000, 24822428380588523736965934121410520000000000000000000),
  (130658990994812433643028811267896800000000000000000000, 337186975337779002770046656833736300000000000000000000),
  (1549061145066026331877765326676672000000000000000000000, 3668249015505806789130803397020204000000000000000000000),
  (14981827471276933453703838699188630000000000000000000000, 32557924276165782525898764170890740000000000000000000000),
  (120228494823026537212255291052575300000000000000000000000, 239801528152466514750562125260821300000000000000000000000),
  (813146697988335420609720798149932800000000000000000000000, 1488766342213512899386796420225942000000000000000000000000),
  (4701814989454642852563866692490850000000000000000000000000, 7903292535729120697005053385838639000000000000000000000000),
  (23550704423237877402900000887864540000000000000000000000000, 36351007986760728360005437004139440000000000000000000000000),
  (103424549100727493807700138578339500000000000000000000000000, 146624718806940045686772819184840700000000000000000000000000),
  (402658268529863564212916307551142900000000000000000000000000, 524458094794625367627653444526920900000000000000000000000000),
  (1403986482548397145291762893886112000000000000000000000000000, 1680618844376870526515477955016921000000000000000000000000000),
  (4425513618895425849773079060457587000000000000000000000000000, 4870450592928272075127943254277898000000000000000000000000000),
  (12719528651087916140219715876471510000000000000000000000000000, 12875733440279066205351909146755640000000000000000000000000000),
  (33598129514226662994664030350183030000000000000000000000000000, 31299749012947699025223658866358760000000000000000000000000000),
  (82157689301114441207377407898788710000000000000000000000000000, 70479677936606594560981413371059240000000000000000000000000000),
  (187225866008917454458590359982729300000000000000000000000000000, 148004099437177102524117076343060200000000000000000000000000000),
  (400059564939885332287599566112341700000000000000000000000000000, 291650478307432698825117945815117900000000000000000000000000000),
  (806041571431522268145493365814771300000000000000000000000000000, 542367715115440907645061322552553200000000000000000000000000000),
  (1539165210064316063078266812044940000000000000000000000000000000, 956770856063843206333050094394684900000000000000000000000000000),
  (2798511034808498356234321113263950000000000000000000000000000000, 1608522260220821408930468010234935000000000000000000000000000000),
  (4865276570555630812927257823712782000000000000000000000000000000, 2587949058148926635385047071919793000000000000000000000000000000),
  (8118278711914626403397262379777521000000000000000000000000000000, 3999270114015502970707510185691911000000000000000000000000000000),
  (13045245575569357812574098231022680000000000000000000000000000000, 5954858247934963026561611060500096000000000000000000000000000000),
  (20246682411660078120188410122938800000000000000000000000000000000, 8566058205181682654853794941747589000000000000000000000000000000),
  (30428703486327009850600198758605370000000000000000000000000000000, 11930279499545571464583250855454430000000000000000000000000000000),
  (44381121552644092313982606598828490000000000000000000000000000000, 16114488399511837935182807640576640000000000000000000000000000000),
  (62937540175998830693286885805665950000000000000000000000000000000, 21135940915094729523876540591715930000000000000000000000000000000),
  (86915544491404944234743775621646470000000000000000000000000000000, 26942072046571588393632828623713970000000000000000000000000000000),
  (117037652780955260818751351291949600000000000000000000000000000000, 33392782111691669842191706314739990000000000000000000000000000000),
  (153837584238541748304878015780670400000000000000000000000000000000, 40249612609002388082296961154405890000000000000000000000000000000),
  (197561279951124826074410995147235100000000000000000000000000000000, 47176920233952553290680145435953720000000000000000000000000000000),
  (248077009784318646177954893209226600000000000000000000000000000000, 53759459270703754160895577709608710000000000000000000000000000000),
  (304812208945575964206397930050297600000000000000000000000000000000, 59538262499366183112535891492163880000000000000000000000000000000),
  (366734561750604547270327269073138300000000000000000000000000000000, 64062435330771881312949704780458980000000000000000000000000000000),
  (432389926957525626745799073133448700000000000000000000000000000000, 66949395298166858728040214758857050000000000000000000000000000000),
  (500000000000000000000000000000000000000000000000000000000000000000, 67941954838192755865659893131974690000000000000000000000000000000),
  (567610073042474373254200926866551300000000000000000000000000000000, 66949395298166858728040214758857050000000000000000000000000000000),
  (633265438249395452729672730926861700000000000000000000000000000000, 64062435330771881312949704780458980000000000000000000000000000000),
  (695187791054424035793602069949702400000000000000000000000000000000, 59538262499366183112535891492163880000000000000000000000000000000),
  (751922990215681353822045106790773500000000000000000000000000000000, 53759459270703754160895577709608700000000000000000000000000000000),
  (802438720048875173925589004852765000000000000000000000000000000000, 47176920233952553290680145435953720000000000000000000000000000000),
  (846162415761458251695121984219329500000000000000000000000000000000, 40249612609002388082296961154405890000000000000000000000000000000),
  (882962347219044739181248648708050300000000000000000000000000000000, 33392782111691669842191706314739990000000000000000000000000000000),
  (913084455508595055765256224378353500000000000000000000000000000000, 26942072046571588393632828623713960000000000000000000000000000000),
  (937062459824001169306713114194334200000000000000000000000000000000, 21135940915094729523876540591715930000000000000000000000000000000),
  (955618878447355907686017393401171400000000000000000000000000000000, 16114488399511837935182807640576640000000000000000000000000000000),
  (969571296513672990149399801241394700000000000000000000000000000000, 11930279499545571464583250855454430000000000000000000000000000000),
  (979753317588339921879811589877061200000000000000000000000000000000, 8566058205181682654853794941747586000000000000000000000000000000),
  (986954754424430642187425901768977400000000000000000000000000000000, 5954858247934963026561611060500096000000000000000000000000000000),
  (991881721288085373596602737620222500000000000000000000000000000000, 3999270114015502970707510185691911000000000000000000000000000000),
  (995134723429444369187072742176287300000000000000000000000000000000, 2587949058148926635385047071919793000000000000000000000000000000),
  (997201488965191501643765678886736100000000000000000000000000000000, 1608522260220821408930468010234935000000000000000000000000000000),
  (998460834789935683936921733187955000000000000000000000000000000000, 956770856063843206333050094394684900000000000000000000000000000),
  (999193958428568477731854506634185300000000000000000000000000000000, 542367715115440907645061322552553200000000000000000000000000000),
  (999599940435060114667712400433887700000000000000000000000000000000, 291650478307432698825117945815117800000000000000000000000000000),
  (999812774133991082545541409640017300000000000000000000000000000000, 148004099437177102524117076343060200000000000000000000000000000),
  (999917842310698885558792622592101300000000000000000000000000000000, 70479677936606594560981413371059240000000000000000000000000000),
  (999966401870485773337005335969649800000000000000000000000000000000, 31299749012947699025223658866358760000000000000000000000000000),
  (999987280471348912083859780284123500000000000000000000000000000000, 12875733440279066205351909146755640000000000000000000000000000),
  (999995574486381104574150226920939600000000000000000000000000000000, 4870450592928272075127943254277898000000000000000000000000000),
  (999998596013517451602854708237106000000000000000000000000000000000, 1680618844376870526515477955016920000000000000000000000000000),
  (999999597341731470136435787083692400000000000000000000000000000000, 524458094794625367627653444526920900000000000000000000000000),
  (999999896575450899272506192299861400000000000000000000000000000000, 146624718806940045686772819184840700000000000000000000000000),
  (999999976449295576762122597099999000000000000000000000000000000000, 36351007986760728360005437004139440000000000000000000000000),
  (999999995298185010545357147436133300000000000000000000000000000000, 7903292535729120697005053385838616000000000000000000000000),
  (999999999186853302011664579390279100000000000000000000000000000000, 1488766342213512899386796420225942000000000000000000000000),
  (999999999879771505176973462787744700000000000000000000000000000000, 239801528152466514750562125260822000000000000000000000000),
  (999999999985018172528723066546296100000000000000000000000000000000, 32557924276165782525898764170890750000000000000000000000),
  (999999999998450938854933973668122300000000000000000000000000000000, 3668249015505806789130803397020203000000000000000000000),
  (999999999999869341009005187566357000000000000000000000000000000000, 337186975337779002770046656833736300000000000000000000),
  (999999999999991174579578760449217100000000000000000000000000000000, 24822428380588523736965934121410520000000000000000000),
  (999999999999999532164837927850755400000000000000000000000000000000, 1434199322982147519108993000418290000000000000000000),
  (999999999999999980960320649701209900000000000000000000000000000000, 63622345820165291641757493597841880000000000000000),
  (999999999999999999419203328358367400000000000000000000000000000000, 2115578337431926453608247217098740000000000000000),
  (999999999999999999987062891699352500000000000000000000000000000000, 51370676725618516675745890785808630000000000000),
  (999999999999999999999795483994193100000000000000000000000000000000, 885306631881016780021004782567589900000000000),
  (999999999999999999999997775626904500000000000000000000000000000000, 10497242556026217217343675628937730000000000),
  (999999999999999999999999983909285600000000000000000000000000000000, 82785621896007348223624472944100100000000),
  (999999999999999999999999999925389300000000000000000000000000000000, 418506252306880673274746407511099100000)]

/-- n = 88. quadrature_lib.cpp:8925-9012. -/
def b88 : List (Nat × Nat) := [
  (40117448330670936909469888347541140000, 225141167168142117742130596115336100000),
  (8693284665069062855705265813656961000000, 44783683556935574389480008422804730000000),
  (1211644714923474964286785722388913000000000, 5729731223368635686075168479982764000000000),
  (112635817313142626041870440431171000000000000, 488955007725053666861504490494965600000000000),
  (7220429920273570848340231630301351000000000000, 28774062580499656658384668848141900000000000000),
  (329096539458483626533448056552619000000000000000, 1203987008549547745598246620984654000000000000000),
  (10968729334941232280489810805439110000000000000000, 36841092920724496094799776867941280000000000000000),
  (274322512396682855982020837898275100000000000000000, 845932889101763421259539584811510800000000000000000),
  (5271337186201545592509361033257235000000000000000000, 14925123769390442023588121363049440000000000000000000),
  (79538021870772018327117153655328840000000000000000000, 206787158799975478887751525762126000000000000000000000),
  (961372283437980835334440128071210800000000000000000000, 2295230744238790840473875415081224000000000000000000000),
  (9480492959082435212486085011701287000000000000000000000, 20787026542291626126002513471873420000000000000000000000),
  (77571553303952854723489063372002230000000000000000000000, 156220819586449918236920428113475800000000000000000000000),
  (534835021137459765427747908772835200000000000000000000000, 989437716150112928389019348073665600000000000000000000000),
  (3151734895277406948687864820926882000000000000000000000000, 5356958948527141600502378149674027000000000000000000000000),
  (16082636800759769678847976949254710000000000000000000000000, 25119225247216391649336292674949170000000000000000000000000),
  (71919718469054030725422991320906750000000000000000000000000, 103245809080492795998771800196617800000000000000000000000000),
  (284974310530923163080167613969266900000000000000000000000000, 376112855819549042729803905610233600000000000000000000000000),
  (1010713026855153475439125282363580000000000000000000000000000, 1226764930032613610879565903640328000000000000000000000000000),
  (3238601900812827530089155605329941000000000000000000000000000, 3616337470939915716469423487870297000000000000000000000000000),
  (9456121391493433554047014092623637000000000000000000000000000, 9718219448089427656194859114311309000000000000000000000000000),
  (25357953038570955390736718818251480000000000000000000000000000, 23997479539973244095686076328588490000000000000000000000000000),
  (62908086785902016806730359617579210000000000000000000000000000, 54851103877232427033121605316518160000000000000000000000000000),
  (145338900693381482081066700377151900000000000000000000000000000, 116835250517663378003637412800765400000000000000000000000000000),
  (314627715581694390442353489510770300000000000000000000000000000, 233358337945054026042067845081202500000000000000000000000000000),
  (641782993964428894892470187551693400000000000000000000000000000, 439543364240284384546606176707835000000000000000000000000000000),
  (1239892946813736887883596202072375000000000000000000000000000000, 784803572272662314675183403674524800000000000000000000000000000),
  (2279374885883136938511777376840085000000000000000000000000000000, 1334569203572005483708400708598115000000000000000000000000000000),
  (4004275476005964302839979026759580000000000000000000000000000000, 2170561493735454241233869456418611000000000000000000000000000000),
  (6747869672993338223080482098903305000000000000000000000000000000, 3389019620421776076086619436034110000000000000000000000000000000),
  (10945229796786128431057964731062400000000000000000000000000000000, 5096326187033163596002427037521654000000000000000000000000000000),
  (17139913036475349570354723395953680000000000000000000000000000000, 7401546168191906890615671243439769000000000000000000000000000000),
  (25981491292745307804699250824727800000000000000000000000000000000, 10405532912905091375586749655277900000000000000000000000000000000),
  (38210429116951212623576398605221300000000000000000000000000000000, 14186545012683978852928084735914280000000000000000000000000000000),
  (54627005726987783402434582901415890000000000000000000000000000000, 18782860485051577376849482737868030000000000000000000000000000000),
  (76041868272201994370015340241330950000000000000000000000000000000, 24173739531700606226137172027346610000000000000000000000000000000),
  (103207713483190757111353981933420800000000000000000000000000000000, 30261241838215240942351781764423300000000000000000000000000000000),
  (136734726289187248487607982087319000000000000000000000000000000000, 36856639888825289404019253293592770000000000000000000000000000000),
  (176996642094547238833730346203451100000000000000000000000000000000, 43676058895397193786942859099233210000000000000000000000000000000),
  (224039008555278919450933949670305200000000000000000000000000000000, 50349921492525821501021705566752110000000000000000000000000000000),
  (277505162350579481564266444354239900000000000000000000000000000000, 56449212161676058821036929804020990000000000000000000000000000000),
  (336596944243634724055829897478005700000000000000000000000000000000, 61528289938986771990618579871765170000000000000000000000000000000),
  (400084703165581375670391616186429600000000000000000000000000000000, 65179455074551435965805954258814080000000000000000000000000000000),
  (466374039996469514901856115664141000000000000000000000000000000000, 67090018660472210639402181641121990000000000000000000000000000000),
  (533625960003530485098143884335859000000000000000000000000000000000, 67090018660472210639402181641121990000000000000000000000000000000),
  (599915296834418624329608383813570500000000000000000000000000000000, 65179455074551435965805954258814080000000000000000000000000000000),
  (663403055756365275944170102521994300000000000000000000000000000000, 61528289938986771990618579871765170000000000000000000000000000000),
  (722494837649420518435733555645760100000000000000000000000000000000, 56449212161676058821036929804020990000000000000000000000000000000),
  (775960991444721080549066050329694700000000000000000000000000000000, 50349921492525821501021705566752110000000000000000000000000000000),
  (823003357905452761166269653796548900000000000000000000000000000000, 43676058895397193786942859099233210000000000000000000000000000000),
  (863265273710812751512392017912681000000000000000000000000000000000, 36856639888825289404019253293592780000000000000000000000000000000),
  (896792286516809242888646018066579300000000000000000000000000000000, 30261241838215240942351781764423300000000000000000000000000000000),
  (923958131727798005629984659758669100000000000000000000000000000000, 24173739531700606226137172027346610000000000000000000000000000000),
  (945372994273012216597565417098584200000000000000000000000000000000, 18782860485051577376849482737868030000000000000000000000000000000),
  (961789570883048787376423601394778800000000000000000000000000000000, 14186545012683978852928084735914280000000000000000000000000000000),
  (974018508707254692195300749175272300000000000000000000000000000000, 10405532912905091375586749655277900000000000000000000000000000000),
  (982860086963524650429645276604046300000000000000000000000000000000, 7401546168191906890615671243439769000000000000000000000000000000),
  (989054770203213871568942035268937700000000000000000000000000000000, 5096326187033163596002427037521654000000000000000000000000000000),
  (993252130327006661776919517901096700000000000000000000000000000000, 3389019620421776076086619436034110000000000000000000000000000000),
  (995995724523994035697160020973240400000000000000000000000000000000, 2170561493735454241233869456418611000000000000000000000000000000),
  (997720625114116863061488222623159900000000000000000000000000000000, 1334569203572005483708400708598115000000000000000000000000000000),
  (998760107053186263112116403797927500000000000000000000000000000000, 784803572272662314675183403674524800000000000000000000000000000),
  (999358217006035571105107529812448300000000000000000000000000000000, 439543364240284384546606176707835000000000000000000000000000000),
  (999685372284418305609557646510489300000000000000000000000000000000, 233358337945054026042067845081202500000000000000000000000000000),
  (999854661099306618517918933299622800000000000000000000000000000000, 116835250517663378003637412800765400000000000000000000000000000),
  (999937091913214097983193269640382400000000000000000000000000000000, 54851103877232427033121605316518160000000000000000000000000000),
  (999974642046961429044609263281181800000000000000000000000000000000, 23997479539973244095686076328588540000000000000000000000000000),
  (999990543878608506566445952985907500000000000000000000000000000000, 9718219448089427656194859114311309000000000000000000000000000),
  (999996761398099187172469910844394700000000000000000000000000000000, 3616337470939915716469423487870297000000000000000000000000000),
  (999998989286973144846524560874717600000000000000000000000000000000, 1226764930032613610879565903640328000000000000000000000000000),
  (999999715025689469076836919832386100000000000000000000000000000000, 376112855819549042729803905610233600000000000000000000000000),
  (999999928080281530945969274577008700000000000000000000000000000000, 103245809080492795998771800196617800000000000000000000000000),
  (999999983917363199240230321152023000000000000000000000000000000000, 25119225247216391649336292674949180000000000000000000000000),
  (999999996848265104722593051312135100000000000000000000000000000000, 5356958948527141600502378149674027000000000000000000000000),
  (999999999465164978862540234572252200000000000000000000000000000000, 989437716150112928389019348073665600000000000000000000000),
  (999999999922428446696047145276511000000000000000000000000000000000, 156220819586449918236920428113476200000000000000000000000),
  (999999999990519507040917564787514000000000000000000000000000000000, 20787026542291626126002513471873420000000000000000000000),
  (999999999999038627716562019164665500000000000000000000000000000000, 2295230744238790840473875415081224000000000000000000000),
  (999999999999920461978129227981672900000000000000000000000000000000, 206787158799975478887751525762126000000000000000000000),
  (999999999999994728662813798454407400000000000000000000000000000000, 14925123769390442023588121363049440000000000000000000),
  (999999999999999725677487603317144000000000000000000000000000000000, 845932889101763421259539584811510800000000000000000),
  (999999999999999989031270665058767700000000000000000000000000000000, 36841092920724496094799776867941280000000000000000),
  (999999999999999999670903460541516500000000000000000000000000000000, 1203987008549547745598246620984654000000000000000),
  (999999999999999999992779570079726500000000000000000000000000000000, 28774062580499656658384668848142080000000000000),
  (999999999999999999999887364182686800000000000000000000000000000000, 488955007725053666861504490494965600000000000),
  (999999999999999999999998788355285100000000000000000000000000000000, 5729731223368635686075168479982764000000000),
  (999999999999999999999999991306715300000000000000000000000000000000, 44783683556935574389480008422804730000000),
  (999999999999999999999999999959882500000000000000000000000000000000, 225141167168142117742130596115336100000)]

/-- n = 89. quadrature_lib.cpp:9013-9101. -/
def b89 : List (Nat × Nat) := [
  (21596000064257581189491572029770420000, 121258286289780855531677703934460600000),
  (4701767235947198919634506808180067000000, 24251710303576616013120697958793120000000),
  (660613395814201592088078319077559500000000, 3130258341273653401909436258573553000000000),
  (62079437181028414194641058096215600000000000, 270235319931035216192459798311387800000000000),
  (4031958115272975231163107256214551000000000000, 16124405317199272970499797159782240000000000000),
  (186529178852060585525349556921403800000000000000, 685333295629951593942611540021242000000000000000),
  (6319319707614235180983625699042099000000000000000, 21331889807820074416440073945142290000000000000000),
  (160819759099383042836452852447600200000000000000000, 498794914379350814323142399945877500000000000000000),
  (3147089560738991531052302257748054000000000000000000, 8968887990945571340678427742671772000000000000000000),
  (48384939428830765910084253476402380000000000000000000, 126710955020417921234057259025949600000000000000000000),
  (596096546573055319719254968141637600000000000000000000, 1434589640452889178190198493238091000000000000000000000),
  (5992489313541451209413597923392312000000000000000000000, 13254524252359671586627086959658690000000000000000000000),
  (49983091743252342394923343515619270000000000000000000000, 101618215232670533237040659174073900000000000000000000000),
  (351252449771088868323377180110875700000000000000000000000, 656468005772293760615923905075049800000000000000000000000),
  (2109179692690746417558245872975392000000000000000000000000, 3624245921022325872926224006082426000000000000000000000000),
  (10963012493379995270507627946816270000000000000000000000000, 17322864530920243554587505190468410000000000000000000000000),
  (49915987050732513228687340764927250000000000000000000000000, 72544563346272529627679478777575660000000000000000000000000),
  (201279102667944633660576878769179500000000000000000000000000, 269119571585408569326000591278801800000000000000000000000000),
  (726075289293591260667953649157303600000000000000000000000000, 893376960795906107481789231638370300000000000000000000000000),
  (2364904191005299642413708170188351000000000000000000000000000, 2678678398176581954011666714406859000000000000000000000000000),
  (7014527850803968546654462809179193000000000000000000000000000, 7316992959641185964953421070792219000000000000000000000000000),
  (19096143623998214463178427845040130000000000000000000000000000, 18353107120586920257991445598128750000000000000000000000000000),
  (48061065282023691052679848295260340000000000000000000000000000, 42581614716802163436918929432020660000000000000000000000000000),
  (112571762365153806437728257077631900000000000000000000000000000, 92001048355607141520798975769455800000000000000000000000000000),
  (246893465389834323777852573135015300000000000000000000000000000, 186256865060325351271064575716702200000000000000000000000000000),
  (509885556853012716733825063219852800000000000000000000000000000, 355346508213128592542942798158133800000000000000000000000000000),
  (996675198021603295671933318210980700000000000000000000000000000, 642203656722920550797258344031470500000000000000000000000000000),
  (1852650208042280031886897436300463000000000000000000000000000000, 1104662703982580965280387843947961000000000000000000000000000000),
  (3288875657034029437744882781670303000000000000000000000000000000, 1816247313018641336976726133413679000000000000000000000000000000),
  (5597476648326668147508405166131449000000000000000000000000000000, 2865222496174017191565615509855558000000000000000000000000000000),
  (9164981630929479265665311525645904000000000000000000000000000000, 4351378547107974171922644049968713000000000000000000000000000000),
  (14481112827600893297116422074154780000000000000000000000000000000, 6380067512182774230094272471958397000000000000000000000000000000),
  (22140074161484529375889941543758150000000000000000000000000000000, 9053110675924835293839142522200590000000000000000000000000000000),
  (32831095720109097972609941087290030000000000000000000000000000000, 12456400845435683730515668139223140000000000000000000000000000000),
  (47314998469057262881914005631150130000000000000000000000000000000, 16644425609463841773135323263832710000000000000000000000000000000),
  (66384084003578420613429008900839330000000000000000000000000000000, 21622618194343781332971374193681570000000000000000000000000000000),
  (90804025554177063214121534245222930000000000000000000000000000000, 27329416251733187107368502275974560000000000000000000000000000000),
  (121238886001983261492074542012168400000000000000000000000000000000, 33621057014600779770932008158604820000000000000000000000000000000),
  (158163953906089070823585273739828400000000000000000000000000000000, 40263152515941446727115362755466200000000000000000000000000000000),
  (201775403695717260002522774951016100000000000000000000000000000000, 46933480010288424618893213676529320000000000000000000000000000000),
  (251909945302123265013455405725876700000000000000000000000000000000, 53239631896256416339356172148187880000000000000000000000000000000),
  (307990232998039964633659254194436200000000000000000000000000000000, 58752820886634913628945332835653040000000000000000000000000000000),
  (369011306101270761655025172489782400000000000000000000000000000000, 63055360969721173046635159412121100000000000000000000000000000000),
  (433578676222288917372522984420701700000000000000000000000000000000, 65795003881983688505356171612394610000000000000000000000000000000),
  (500000000000000000000000000000000000000000000000000000000000000000, 66735894885081873284503247355654120000000000000000000000000000000),
  (566421323777711082627477015579298200000000000000000000000000000000, 65795003881983688505356171612394610000000000000000000000000000000),
  (630988693898729238344974827510217600000000000000000000000000000000, 63055360969721173046635159412121100000000000000000000000000000000),
  (692009767001960035366340745805563800000000000000000000000000000000, 58752820886634913628945332835653040000000000000000000000000000000),
  (748090054697876734986544594274123400000000000000000000000000000000, 53239631896256416339356172148187880000000000000000000000000000000),
  (798224596304282739997477225048983900000000000000000000000000000000, 46933480010288424618893213676529300000000000000000000000000000000),
  (841836046093910929176414726260171800000000000000000000000000000000, 40263152515941446727115362755466180000000000000000000000000000000),
  (878761113998016738507925457987831600000000000000000000000000000000, 33621057014600779770932008158604820000000000000000000000000000000),
  (909195974445822936785878465754777000000000000000000000000000000000, 27329416251733187107368502275974560000000000000000000000000000000),
  (933615915996421579386570991099160700000000000000000000000000000000, 21622618194343781332971374193681570000000000000000000000000000000),
  (952685001530942737118085994368849800000000000000000000000000000000, 16644425609463841773135323263832710000000000000000000000000000000),
  (967168904279890902027390058912710000000000000000000000000000000000, 12456400845435683730515668139223140000000000000000000000000000000),
  (977859925838515470624110058456241800000000000000000000000000000000, 9053110675924835293839142522200590000000000000000000000000000000),
  (985518887172399106702883577925845200000000000000000000000000000000, 6380067512182774230094272471958397000000000000000000000000000000),
  (990835018369070520734334688474354100000000000000000000000000000000, 4351378547107974171922644049968711000000000000000000000000000000),
  (994402523351673331852491594833868600000000000000000000000000000000, 2865222496174017191565615509855557000000000000000000000000000000),
  (996711124342965970562255117218329600000000000000000000000000000000, 1816247313018641336976726133413679000000000000000000000000000000),
  (998147349791957719968113102563699500000000000000000000000000000000, 1104662703982580965280387843947961000000000000000000000000000000),
  (999003324801978396704328066681789100000000000000000000000000000000, 642203656722920550797258344031470400000000000000000000000000000),
  (999490114443146987283266174936780100000000000000000000000000000000, 355346508213128592542942798158133800000000000000000000000000000),
  (999753106534610165676222147426865100000000000000000000000000000000, 186256865060325351271064575716702200000000000000000000000000000),
  (999887428237634846193562271742922300000000000000000000000000000000, 92001048355607141520798975769455770000000000000000000000000000),
  (999951938934717976308947320151704800000000000000000000000000000000, 42581614716802163436918929432020660000000000000000000000000000),
  (999980903856376001785536821572155000000000000000000000000000000000, 18353107120586920257991445598128750000000000000000000000000000),
  (999992985472149196031453345537190800000000000000000000000000000000, 7316992959641185964953421070792219000000000000000000000000000),
  (999997635095808994700357586291829800000000000000000000000000000000, 2678678398176581954011666714406859000000000000000000000000000),
  (999999273924710706408739332046350900000000000000000000000000000000, 893376960795906107481789231638370300000000000000000000000000),
  (999999798720897332055366339423121200000000000000000000000000000000, 269119571585408569326000591278801800000000000000000000000000),
  (999999950084012949267486771312659100000000000000000000000000000000, 72544563346272529627679478777575660000000000000000000000000),
  (999999989036987506620004729492372000000000000000000000000000000000, 17322864530920243554587505190468410000000000000000000000000),
  (999999997890820307309253582441754100000000000000000000000000000000, 3624245921022325872926224006082426000000000000000000000000),
  (999999999648747550228911131676622800000000000000000000000000000000, 656468005772293760615923905075051600000000000000000000000),
  (999999999950016908256747657605076700000000000000000000000000000000, 101618215232670533237040659174073900000000000000000000000),
  (999999999994007510686458548790586400000000000000000000000000000000, 13254524252359671586627086959658690000000000000000000000),
  (999999999999403903453426944680280800000000000000000000000000000000, 1434589640452889178190198493238091000000000000000000000),
  (999999999999951615060571169234090000000000000000000000000000000000, 126710955020417921234057259025949600000000000000000000),
  (999999999999996852910439261008468900000000000000000000000000000000, 8968887990945571340678427742671772000000000000000000),
  (999999999999999839180240900616957200000000000000000000000000000000, 498794914379350814323142399945877500000000000000000),
  (999999999999999993680680292385764800000000000000000000000000000000, 21331889807820074416440073945142290000000000000000),
  (999999999999999999813470821147939400000000000000000000000000000000, 685333295629951593942611540021242000000000000000),
  (999999999999999999995968041884727000000000000000000000000000000000, 16124405317199272970499797159782140000000000000),
  (999999999999999999999937920562818900000000000000000000000000000000, 270235319931035216192459798311387700000000000),
  (999999999999999999999999339386604100000000000000000000000000000000, 3130258341273653401909436258573553000000000),
  (999999999999999999999999995298232800000000000000000000000000000000, 24251710303576616013120697958793120000000),
  (999999999999999999999999999978404000000000000000000000000000000000, 121258286289780855531677703934460600000)]

/-- n = 90. quadrature_lib.cpp:9102-9191. -/
def b90 : List (Nat × Nat) := [
  (11638955319804865226422607342773820000, 65382916512222670384588141488887680000),
  (2545662409219155025137765140093122000000, 13146699469692076950438767615534980000000),
  (360511795791251000571757932579549600000000, 1711627080651324056423372272512119000000000),
  (34240401897314515555213133879096840000000000, 149455485411814999826754278370750300000000000),
  (2252663186757873941747396484104355000000000000, 9039906777393352769827635415483628000000000000),
  (105754086226982659461654932841495700000000000000, 390187144982670217676623704905473500000000000000),
  (3640882977409641453580570495487226000000000000000, 12351124886317911473966464332710040000000000000000),
  (94261442404400380952470149716773290000000000000000, 294019851551461286726574335731760400000000000000000),
  (1878061244897624798741456092236873000000000000000000, 5386632238141347741981373383178284000000000000000000),
  (29414185078299916616467810464718410000000000000000000, 77581054761225518275812856535774630000000000000000000),
  (369280545188864940015474007251427900000000000000000000, 895731093933334752996860893778728100000000000000000000),
  (3783623872757674738618398240337097000000000000000000000, 8440890936015751898299034865344339000000000000000000000),
  (32165062304961572701094180813626550000000000000000000000, 66003547690071953303202156785295290000000000000000000000),
  (230347370958242923343600514747010300000000000000000000000, 434830538085697865809890808027182500000000000000000000000),
  (1409202509684999027478465775401524000000000000000000000000, 2447511547941329776489148432385998000000000000000000000000),
  (7459988033341516070855709845278718000000000000000000000000, 11922729906335991941714166404858810000000000000000000000000),
  (34579186487169903090290082504577270000000000000000000000000, 50865487175877345487592121235317690000000000000000000000000),
  (141883267104177478597893182630165000000000000000000000000000, 192136712226122096303989649194589500000000000000000000000000),
  (520522170144380176015656363640522300000000000000000000000000, 649092981109796576384912011353354700000000000000000000000000),
  (1723239412347168969305260479508737000000000000000000000000000, 1979431458750309837931839139356127000000000000000000000000000),
  (5192064316709260733832554153156823000000000000000000000000000, 5495724231940081680402306512668416000000000000000000000000000),
  (14348980272447750855561603184073430000000000000000000000000000, 14001881271794721525156085457112460000000000000000000000000000),
  (36636924770804281083810527225367910000000000000000000000000000, 32975101786013403132738964956229680000000000000000000000000000),
  (86999585615347951493941749671522280000000000000000000000000000, 72267111993326535615569230214765120000000000000000000000000000),
  (193316813078563766071002499396814200000000000000000000000000000, 148299062378260143782413638745476700000000000000000000000000000),
  (404219085457811228194695545122657300000000000000000000000000000, 286584383338870841768854117926978700000000000000000000000000000),
  (799463352521228077731285862087281100000000000000000000000000000, 524264726509444081837543604355418600000000000000000000000000000),
  (1502673218909848653936562384571734000000000000000000000000000000, 912222301680593775041994482019814900000000000000000000000000000),
  (2695769730855490517481070937668952000000000000000000000000000000, 1516261242503186918405611250070769000000000000000000000000000000),
  (4633898683646173348882673456251169000000000000000000000000000000, 2416832395416599447396755948202493000000000000000000000000000000),
  (7659141686982171885545161218279060000000000000000000000000000000, 3706794271143468490318070650285115000000000000000000000000000000),
  (12210809449373507000347413754145670000000000000000000000000000000, 5486743233416414474384509768706745000000000000000000000000000000),
  (18829680296920067030266375045634700000000000000000000000000000000, 7857516476456910557736471019476441000000000000000000000000000000),
  (28153213723346414460415199245673560000000000000000000000000000000, 10909615646646496249670789506958440000000000000000000000000000000),
  (40898647224737228526855364366851490000000000000000000000000000000, 14709592158263221469340915908811880000000000000000000000000000000),
  (57831165634818894962054252529030320000000000000000000000000000000, 19283959210451770726944724685047840000000000000000000000000000000),
  (79715273929623218731691640108158930000000000000000000000000000000, 24601994351558623347724476967829810000000000000000000000000000000),
  (107249366237824488980981505475109000000000000000000000000000000000, 30559817495598184364479504221414560000000000000000000000000000000),
  (140986399040809840860149007507967600000000000000000000000000000000, 36969165742142366461417900514478830000000000000000000000000000000),
  (181247382622472073442386971019053900000000000000000000000000000000, 43554954180125514538065692748709970000000000000000000000000000000),
  (228038485947297369615372254748188600000000000000000000000000000000, 49965507573902887458979237979148490000000000000000000000000000000),
  (280985795100695789272878598447396200000000000000000000000000000000, 55797823375965523086775347997360990000000000000000000000000000000),
  (339302755205319156660921586408987700000000000000000000000000000000, 60637264220052485521149689703402450000000000000000000000000000000),
  (401802804093149675476874987643609700000000000000000000000000000000, 64107154745176360451055442199749520000000000000000000000000000000),
  (466963230472083245597000433509515600000000000000000000000000000000, 65920006980855044205519417469677880000000000000000000000000000000),
  (533036769527916754402999566490484400000000000000000000000000000000, 65920006980855044205519417469677880000000000000000000000000000000),
  (598197195906850324523125012356390300000000000000000000000000000000, 64107154745176360451055442199749520000000000000000000000000000000),
  (660697244794680843339078413591012200000000000000000000000000000000, 60637264220052485521149689703402450000000000000000000000000000000),
  (719014204899304210727121401552603700000000000000000000000000000000, 55797823375965523086775347997360990000000000000000000000000000000),
  (771961514052702630384627745251811400000000000000000000000000000000, 49965507573902887458979237979148490000000000000000000000000000000),
  (818752617377527926557613028980946100000000000000000000000000000000, 43554954180125514538065692748709970000000000000000000000000000000),
  (859013600959190159139850992492032400000000000000000000000000000000, 36969165742142366461417900514478850000000000000000000000000000000),
  (892750633762175511019018494524891100000000000000000000000000000000, 30559817495598184364479504221414560000000000000000000000000000000),
  (920284726070376781268308359891841000000000000000000000000000000000, 24601994351558623347724476967829800000000000000000000000000000000),
  (942168834365181105037945747470969600000000000000000000000000000000, 19283959210451770726944724685047840000000000000000000000000000000),
  (959101352775262771473144635633148500000000000000000000000000000000, 14709592158263221469340915908811880000000000000000000000000000000),
  (971846786276653585539584800754326400000000000000000000000000000000, 10909615646646496249670789506958440000000000000000000000000000000),
  (981170319703079932969733624954365200000000000000000000000000000000, 7857516476456910557736471019476441000000000000000000000000000000),
  (987789190550626492999652586245854400000000000000000000000000000000, 5486743233416414474384509768706745000000000000000000000000000000),
  (992340858313017828114454838781720900000000000000000000000000000000, 3706794271143468490318070650285115000000000000000000000000000000),
  (995366101316353826651117326543748800000000000000000000000000000000, 2416832395416599447396755948202493000000000000000000000000000000),
  (997304230269144509482518929062330900000000000000000000000000000000, 1516261242503186918405611250070769000000000000000000000000000000),
  (998497326781090151346063437615428200000000000000000000000000000000, 912222301680593775041994482019814700000000000000000000000000000),
  (999200536647478771922268714137912700000000000000000000000000000000, 524264726509444081837543604355418600000000000000000000000000000),
  (999595780914542188771805304454877300000000000000000000000000000000, 286584383338870841768854117926978700000000000000000000000000000),
  (999806683186921436233928997500603200000000000000000000000000000000, 148299062378260143782413638745476700000000000000000000000000000),
  (999913000414384652048506058250328400000000000000000000000000000000, 72267111993326535615569230214765120000000000000000000000000000),
  (999963363075229195718916189472774700000000000000000000000000000000, 32975101786013403132738964956229680000000000000000000000000000),
  (999985651019727552249144438396815900000000000000000000000000000000, 14001881271794721525156085457112460000000000000000000000000000),
  (999994807935683290739266167445846800000000000000000000000000000000, 5495724231940081680402306512668415000000000000000000000000000),
  (999998276760587652831030694739520400000000000000000000000000000000, 1979431458750309837931839139356127000000000000000000000000000),
  (999999479477829855619823984343636200000000000000000000000000000000, 649092981109796576384912011353354700000000000000000000000000),
  (999999858116732895822521402106817500000000000000000000000000000000, 192136712226122096303989649194589500000000000000000000000000),
  (999999965420813512830096909709917600000000000000000000000000000000, 50865487175877345487592121235317690000000000000000000000000),
  (999999992540011966658483929144290200000000000000000000000000000000, 11922729906335991941714166404858810000000000000000000000000),
  (999999998590797490315000972521534200000000000000000000000000000000, 2447511547941329776489148432385997000000000000000000000000),
  (999999999769652629041757076656399600000000000000000000000000000000, 434830538085697865809890808027183800000000000000000000000),
  (999999999967834937695038427298905800000000000000000000000000000000, 66003547690071953303202156785295460000000000000000000000),
  (999999999996216376127242325261381600000000000000000000000000000000, 8440890936015751898299034865344338000000000000000000000),
  (999999999999630719454811135059984500000000000000000000000000000000, 895731093933334752996860893778728100000000000000000000),
  (999999999999970585814921700083383600000000000000000000000000000000, 77581054761225518275812856535774630000000000000000000),
  (999999999999998121938755102375201300000000000000000000000000000000, 5386632238141347741981373383178284000000000000000000),
  (999999999999999905738557595599619100000000000000000000000000000000, 294019851551461286726574335731760400000000000000000),
  (999999999999999996359117022590358600000000000000000000000000000000, 12351124886317911473966464332710040000000000000000),
  (999999999999999999894245913773017400000000000000000000000000000000, 390187144982670217676623704905473500000000000000),
  (999999999999999999997747336813242100000000000000000000000000000000, 9039906777393352769827635415483628000000000000),
  (999999999999999999999965759598102800000000000000000000000000000000, 149455485411814999826754278370750300000000000),
  (999999999999999999999999639488204200000000000000000000000000000000, 1711627080651324056423372272512119000000000),
  (999999999999999999999999997454337600000000000000000000000000000000, 13146699469692076950438767615534980000000),
  (999999999999999999999999999988361000000000000000000000000000000000, 65382916512222670384588141488887680000)]

/-- n = 91. quadrature_lib.cpp:9192-9282. -/
def b91 : List (Nat × Nat) := [
  (6279834448975671500569971786630040000, 35294455273373166655271543966709730000),
  (1379738887843374892275475932092650000000, 7134066827173012121180473657505565000000),
  (196918841629395549530395104737170700000000, 936736256063939593693730369257940100000000),
  (18899379385922575371021547836016500000000000, 82713541572636868848533309258632840000000000),
  (1259226651606759907044046800944805000000000000, 5070407883297660745125225944117500000000000000),
  (59975922846579932373907028003928290000000000000, 222197272400159544698960949616933000000000000000),
  (2097830186842424064442890413026561000000000000000, 7151055041428355023252606627984716000000000000000),
  (55239854244120492408891592538396350000000000000000, 173263981017708041090674311438385100000000000000000),
  (1120293532383968679293106952669244000000000000000000, 3233439879330943938721944030301030000000000000000000),
  (17870040339805928860724968222876780000000000000000000, 47463608657974637312737383442263150000000000000000000),
  (228572248130011344881590995166780700000000000000000000, 558715316770840227322070748356744700000000000000000000),
  (2386418956273783936892877062184967000000000000000000000, 5368841303423203417946517858194789000000000000000000000),
  (20672881615947906932499031380259710000000000000000000000, 42809774872762254959058520201336980000000000000000000000),
  (150843609283139726645256807405871100000000000000000000000, 287558081603520454089112939872363800000000000000000000000),
  (940037019792966424375823088301339000000000000000000000000, 1649900692636847168035370239897250000000000000000000000000),
  (5067547771374946049696680907804210000000000000000000000000, 8190165098813911668723749098528961000000000000000000000000),
  (23910524467729497166413054017425630000000000000000000000000, 35591458368456541749910746246659610000000000000000000000000),
  (99820236971878934187402810931840160000000000000000000000000, 136877275534305404033848288683373500000000000000000000000000),
  (372404876440133040190017036748914400000000000000000000000000, 470538466053724830810716215945779400000000000000000000000000),
  (1253047903548066121816824887208937000000000000000000000000000, 1459301287142623628274865761826186000000000000000000000000000),
  (3834870715859074165613700730411711000000000000000000000000000, 4117927666327189687867968837817232000000000000000000000000000),
  (10758503574155653225070415052482850000000000000000000000000000, 10656380053373768664884983468580670000000000000000000000000000),
  (27867212516594864527099344767025410000000000000000000000000000, 25473554068879966104694975342723060000000000000000000000000000),
  (67089378564415211555353790892504300000000000000000000000000000, 56627598845812258646353329686500760000000000000000000000000000),
  (151037359813357590217012159186154000000000000000000000000000000, 117790598960228654539729259056647900000000000000000000000000000),
  (319761772765234706973761360049719500000000000000000000000000000, 230574287970376955738138561922717000000000000000000000000000000),
  (639917405332843524335744200615416500000000000000000000000000000, 426974210562578202095727244866494200000000000000000000000000000),
  (1216279870730945623308972447225959000000000000000000000000000000, 751555968470659549127266913506173100000000000000000000000000000),
  (2205130783190265552675556697033357000000000000000000000000000000, 1262925614493382634528054647783926000000000000000000000000000000),
  (3828551606423576727740558727250436000000000000000000000000000000, 2033994747101138501870822095262502000000000000000000000000000000),
  (6388178207386356348516319685499521000000000000000000000000000000, 3150558584870840583886330821078997000000000000000000000000000000),
  (10276500384743865569943858200528200000000000000000000000000000000, 4707736203480562749897022058036450000000000000000000000000000000),
  (15983363573792592986780383679267430000000000000000000000000000000, 6803874472256882862065765427523927000000000000000000000000000000),
  (24094976119772298111302131711588550000000000000000000000000000000, 9531618857493051445484559844719687000000000000000000000000000000),
  (35282521737460539036396716335246200000000000000000000000000000000, 12966064760827157341699919339296190000000000000000000000000000000),
  (50277569722815352100565715348743550000000000000000000000000000000, 17150298574895445829792152979207880000000000000000000000000000000),
  (69832083030636036397724375457097520000000000000000000000000000000, 22079277382679890604553869496302220000000000000000000000000000000),
  (94662195190801656913860233907225120000000000000000000000000000000, 27683873561243017582854596404566950000000000000000000000000000000),
  (125377247361766535889854211645328400000000000000000000000000000000, 33817898397232659935702920761915720000000000000000000000000000000),
  (162398828228453618124295859478351000000000000000000000000000000000, 40251732133560120838151273791047470000000000000000000000000000000),
  (205878363133446066828013641613305200000000000000000000000000000000, 46676400466712849218681345605583170000000000000000000000000000000),
  (255625320839119197808243293559582200000000000000000000000000000000, 52721092996154618828837098646117780000000000000000000000000000000),
  (311060127362921925955216076108269100000000000000000000000000000000, 57984945931974039133964566632188740000000000000000000000000000000),
  (371205107413607366772149709534955300000000000000000000000000000000, 62080581971906870105565453302276360000000000000000000000000000000),
  (434722395883501186777058678518651100000000000000000000000000000000, 64683190274497438068670387592359060000000000000000000000000000000),
  (500000000000000000000000000000000000000000000000000000000000000000, 65576104114245231681248072152356940000000000000000000000000000000),
  (565277604116498813222941321481348900000000000000000000000000000000, 64683190274497438068670387592359060000000000000000000000000000000),
  (628794892586392633227850290465044700000000000000000000000000000000, 62080581971906870105565453302276360000000000000000000000000000000),
  (688939872637078074044783923891730800000000000000000000000000000000, 57984945931974039133964566632188740000000000000000000000000000000),
  (744374679160880802191756706440417800000000000000000000000000000000, 52721092996154618828837098646117780000000000000000000000000000000),
  (794121636866553933171986358386694800000000000000000000000000000000, 46676400466712849218681345605583190000000000000000000000000000000),
  (837601171771546381875704140521649000000000000000000000000000000000, 40251732133560120838151273791047470000000000000000000000000000000),
  (874622752638233464110145788354671600000000000000000000000000000000, 33817898397232659935702920761915710000000000000000000000000000000),
  (905337804809198343086139766092774800000000000000000000000000000000, 27683873561243017582854596404566950000000000000000000000000000000),
  (930167916969363963602275624542902500000000000000000000000000000000, 22079277382679890604553869496302220000000000000000000000000000000),
  (949722430277184647899434284651256400000000000000000000000000000000, 17150298574895445829792152979207880000000000000000000000000000000),
  (964717478262539460963603283664753800000000000000000000000000000000, 12966064760827157341699919339296190000000000000000000000000000000),
  (975905023880227701888697868288411500000000000000000000000000000000, 9531618857493051445484559844719687000000000000000000000000000000),
  (984016636426207407013219616320732600000000000000000000000000000000, 6803874472256882862065765427523927000000000000000000000000000000),
  (989723499615256134430056141799471800000000000000000000000000000000, 4707736203480562749897022058036450000000000000000000000000000000),
  (993611821792613643651483680314500400000000000000000000000000000000, 3150558584870840583886330821078997000000000000000000000000000000),
  (996171448393576423272259441272749600000000000000000000000000000000, 2033994747101138501870822095262504000000000000000000000000000000),
  (997794869216809734447324443302966600000000000000000000000000000000, 1262925614493382634528054647783926000000000000000000000000000000),
  (998783720129269054376691027552774100000000000000000000000000000000, 751555968470659549127266913506173100000000000000000000000000000),
  (999360082594667156475664255799384700000000000000000000000000000000, 426974210562578202095727244866494200000000000000000000000000000),
  (999680238227234765293026238639950300000000000000000000000000000000, 230574287970376955738138561922717000000000000000000000000000000),
  (999848962640186642409782987840813800000000000000000000000000000000, 117790598960228654539729259056647900000000000000000000000000000),
  (999932910621435584788444646209107500000000000000000000000000000000, 56627598845812258646353329686500760000000000000000000000000000),
  (999972132787483405135472900655233000000000000000000000000000000000, 25473554068879966104694975342723060000000000000000000000000000),
  (999989241496425844346774929584947400000000000000000000000000000000, 10656380053373768664884983468580670000000000000000000000000000),
  (999996165129284140925834386299269500000000000000000000000000000000, 4117927666327189687867968837817232000000000000000000000000000),
  (999998746952096451933878183175112700000000000000000000000000000000, 1459301287142623628274865761826186000000000000000000000000000),
  (999999627595123559866959809982963300000000000000000000000000000000, 470538466053724830810716215945779400000000000000000000000000),
  (999999900179763028121065812597189000000000000000000000000000000000, 136877275534305404033848288683373500000000000000000000000000),
  (999999976089475532270502833586946100000000000000000000000000000000, 35591458368456541749910746246659610000000000000000000000000),
  (999999994932452228625053950303319200000000000000000000000000000000, 8190165098813911668723749098528961000000000000000000000000),
  (999999999059962980207033575624177000000000000000000000000000000000, 1649900692636847168035370239897250000000000000000000000000),
  (999999999849156390716860273354743200000000000000000000000000000000, 287558081603520454089112939872363800000000000000000000000),
  (999999999979327118384052093067500900000000000000000000000000000000, 42809774872762254959058520201336850000000000000000000000),
  (999999999997613581043726216063107100000000000000000000000000000000, 5368841303423203417946517858194789000000000000000000000),
  (999999999999771427751869988655118500000000000000000000000000000000, 558715316770840227322070748356744800000000000000000000),
  (999999999999982129959660194071139400000000000000000000000000000000, 47463608657974637312737383442263150000000000000000000),
  (999999999999998879706467616031320700000000000000000000000000000000, 3233439879330943938721944030301030000000000000000000),
  (999999999999999944760145755879507600000000000000000000000000000000, 173263981017708041090674311438385100000000000000000),
  (999999999999999997902169813157575900000000000000000000000000000000, 7151055041428355023252606627984757000000000000000),
  (999999999999999999940024077153420100000000000000000000000000000000, 222197272400159544698960949616933000000000000000),
  (999999999999999999998740773348393300000000000000000000000000000000, 5070407883297660745125225944117533000000000000),
  (999999999999999999999981100620614000000000000000000000000000000000, 82713541572636868848533309258632870000000000),
  (999999999999999999999999803081158300000000000000000000000000000000, 936736256063939593693730369257940100000000),
  (999999999999999999999999998620261100000000000000000000000000000000, 7134066827173012121180473657505565000000),
  (999999999999999999999999999993720100000000000000000000000000000000, 35294455273373166655271543966709730000)]

/-- n = 92. quadrature_lib.cpp:9283-9374. -/
def b92 : List (Nat × Nat) := [
  (3392102231906533759382168880269347000, 19073533928058784623456133358739950000),
  (748589103101020471910248052279112500000, 3875235336602947829611475934710427000000),
  (107658047782028349123204698946581600000000, 513098747526944236012633963558181300000000),
  (10439305800789465839236280865448920000000000, 45807314039980886821423832464721140000000000),
  (704269643618004189468496673347258800000000000, 2845256378743593517996194574660283000000000000),
  (34024241971860699434731930922987530000000000000, 126561752911340477370724329433200700000000000000),
  (1208831497806352492698805181309609000000000000000, 4140244170570964713882401732612777000000000000000),
  (32366929780550857143585648011028310000000000000000, 102076330700722875172351418969603700000000000000000),
  (668011733334542677169046659205575200000000000000000, 1939953287025534343993829685073678000000000000000000),
  (10849928092146366532945790321692360000000000000000000, 29016270717603279645579987067784970000000000000000000),
  (141361082807061614560335032147084800000000000000000000, 348161184834124698840568314666948800000000000000000000),
  (1503615409564449645841756698063599000000000000000000000, 3410800046682763848708971340863671000000000000000000000),
  (13270499290335063511466690816257400000000000000000000000, 27727770846099283648581015195299640000000000000000000000),
  (98642784477239765047228408681862280000000000000000000000, 189866093793437237124171511426314100000000000000000000000),
  (626099936930205028060013511489614700000000000000000000000, 1110285305046504284224302204213782000000000000000000000000),
  (3436565873994205912771322620364929000000000000000000000000, 5615501895770892418464047275540623000000000000000000000000),
  (16503580247378717897214784536842540000000000000000000000000, 24853672846642270060715152346856670000000000000000000000000),
  (70093236671332027807510958818100600000000000000000000000000, 97302934148038363093302883297197780000000000000000000000000),
  (265903861593340504581536436677370700000000000000000000000000, 340342725567926979179531559081652600000000000000000000000000),
  (909271391822510899362653605843235500000000000000000000000000, 1073372016576984094265508303301169000000000000000000000000000),
  (2826462613284890493073667632064328000000000000000000000000000, 3078286694510335068474758901266508000000000000000000000000000),
  (8049145820666107894636658997393714000000000000000000000000000, 8090833687203671107502493293605144000000000000000000000000000),
  (21150822447890569275255861143474860000000000000000000000000000, 19631096350057361076619652199117310000000000000000000000000000),
  (51623582167202198251114687866054520000000000000000000000000000, 44265540372540784642112170196218300000000000000000000000000000),
  (117750126537055591105094063686562100000000000000000000000000000, 93333614136774920153059330749010960000000000000000000000000000),
  (252410894890741103621371074006967700000000000000000000000000000, 185069535849397296680044962557815600000000000000000000000000000),
  (511134094386052025906534386732035800000000000000000000000000000, 346922733205574491960598862361564000000000000000000000000000000),
  (982437039398215197829845039109362300000000000000000000000000000, 617758092775864372116037902249924000000000000000000000000000000),
  (1800139995468448508837445486320326000000000000000000000000000000, 1049527575706726323494256795949883000000000000000000000000000000),
  (3156899565816074547150214962022258000000000000000000000000000000, 1707961046417422348507109254295532000000000000000000000000000000),
  (5317752181082320263959709842171700000000000000000000000000000000, 2671821105171728325316329455976109000000000000000000000000000000),
  (8632012771477432676950699164079823000000000000000000000000000000, 4030289272800558895053945216406813000000000000000000000000000000),
  (13541459451111491347095664132543180000000000000000000000000000000, 5878090956529497726957868315868940000000000000000000000000000000),
  (20582374608452606411368287921254440000000000000000000000000000000, 8308039127850354440753099924027411000000000000000000000000000000),
  (30378758510791760056191900442706960000000000000000000000000000000, 11400826191623699729803680545415030000000000000000000000000000000),
  (43623992650963877823260468135609700000000000000000000000000000000, 15212186694597376165422965427453350000000000000000000000000000000),
  (61048584054574109537372138131453330000000000000000000000000000000, 19758054800151173460380793193391620000000000000000000000000000000),
  (83372593743580443250606841113294850000000000000000000000000000000, 24999073066861578195267599278796950000000000000000000000000000000),
  (111243150053750934681294922789869800000000000000000000000000000000, 30826706331154930851799138471008490000000000000000000000000000000),
  (145160147601171102800784342590741500000000000000000000000000000000, 37054076722313081362199906017187670000000000000000000000000000000),
  (185396639989522332577111887328520200000000000000000000000000000000, 43415120961906911510211908869577050000000000000000000000000000000),
  (231923961793487724865906172481054900000000000000000000000000000000, 49575355672460931696873314795838490000000000000000000000000000000),
  (284354272745407265911756774379769800000000000000000000000000000000, 55156071263583809079298498345776020000000000000000000000000000000),
  (341913795877924472615959316152573100000000000000000000000000000000, 59771112562976800492294985373722360000000000000000000000000000000),
  (403457505598891980507084595124068000000000000000000000000000000000, 63072000988596950362430884087715050000000000000000000000000000000),
  (467530124957037024058723415938277300000000000000000000000000000000, 64793993107704316950939721727525300000000000000000000000000000000),
  (532469875042962975941276584061722700000000000000000000000000000000, 64793993107704316950939721727525300000000000000000000000000000000),
  (596542494401108019492915404875932000000000000000000000000000000000, 63072000988596950362430884087715050000000000000000000000000000000),
  (658086204122075527384040683847426900000000000000000000000000000000, 59771112562976800492294985373722360000000000000000000000000000000),
  (715645727254592734088243225620230200000000000000000000000000000000, 55156071263583809079298498345776020000000000000000000000000000000),
  (768076038206512275134093827518945000000000000000000000000000000000, 49575355672460931696873314795838490000000000000000000000000000000),
  (814603360010477667422888112671479700000000000000000000000000000000, 43415120961906911510211908869577050000000000000000000000000000000),
  (854839852398828897199215657409258500000000000000000000000000000000, 37054076722313081362199906017187670000000000000000000000000000000),
  (888756849946249065318705077210130000000000000000000000000000000000, 30826706331154930851799138471008500000000000000000000000000000000),
  (916627406256419556749393158886705200000000000000000000000000000000, 24999073066861578195267599278796950000000000000000000000000000000),
  (938951415945425890462627861868546700000000000000000000000000000000, 19758054800151173460380793193391630000000000000000000000000000000),
  (956376007349036122176739531864390300000000000000000000000000000000, 15212186694597376165422965427453350000000000000000000000000000000),
  (969621241489208239943808099557293100000000000000000000000000000000, 11400826191623699729803680545415030000000000000000000000000000000),
  (979417625391547393588631712078745700000000000000000000000000000000, 8308039127850354440753099924027411000000000000000000000000000000),
  (986458540548888508652904335867456900000000000000000000000000000000, 5878090956529497726957868315868943000000000000000000000000000000),
  (991367987228522567323049300835920300000000000000000000000000000000, 4030289272800558895053945216406813000000000000000000000000000000),
  (994682247818917679736040290157828200000000000000000000000000000000, 2671821105171728325316329455976108000000000000000000000000000000),
  (996843100434183925452849785037977700000000000000000000000000000000, 1707961046417422348507109254295531000000000000000000000000000000),
  (998199860004531551491162554513679600000000000000000000000000000000, 1049527575706726323494256795949883000000000000000000000000000000),
  (999017562960601784802170154960890600000000000000000000000000000000, 617758092775864372116037902249924100000000000000000000000000000),
  (999488865905613947974093465613267900000000000000000000000000000000, 346922733205574491960598862361564000000000000000000000000000000),
  (999747589105109258896378628925993000000000000000000000000000000000, 185069535849397296680044962557815600000000000000000000000000000),
  (999882249873462944408894905936313500000000000000000000000000000000, 93333614136774920153059330749010960000000000000000000000000000),
  (999948376417832797801748885312133900000000000000000000000000000000, 44265540372540784642112170196218300000000000000000000000000000),
  (999978849177552109430724744138856500000000000000000000000000000000, 19631096350057361076619652199117310000000000000000000000000000),
  (999991950854179333892105363341002700000000000000000000000000000000, 8090833687203671107502493293605158000000000000000000000000000),
  (999997173537386715109506926332368000000000000000000000000000000000, 3078286694510335068474758901266508000000000000000000000000000),
  (999999090728608177489100637346394100000000000000000000000000000000, 1073372016576984094265508303301169000000000000000000000000000),
  (999999734096138406659495418463563300000000000000000000000000000000, 340342725567926979179531559081652600000000000000000000000000),
  (999999929906763328667972192489041100000000000000000000000000000000, 97302934148038363093302883297197780000000000000000000000000),
  (999999983496419752621282102785215500000000000000000000000000000000, 24853672846642270060715152346856660000000000000000000000000),
  (999999996563434126005794087228677300000000000000000000000000000000, 5615501895770892418464047275540623000000000000000000000000),
  (999999999373900063069794971939986600000000000000000000000000000000, 1110285305046504284224302204213782000000000000000000000000),
  (999999999901357215522760234952771600000000000000000000000000000000, 189866093793437237124171511426313500000000000000000000000),
  (999999999986729500709664936488533400000000000000000000000000000000, 27727770846099283648581015195299640000000000000000000000),
  (999999999998496384590435550354158300000000000000000000000000000000, 3410800046682763848708971340863671000000000000000000000),
  (999999999999858638917192938385439600000000000000000000000000000000, 348161184834124698840568314666948800000000000000000000),
  (999999999999989150071907853633467100000000000000000000000000000000, 29016270717603279645579987067784970000000000000000000),
  (999999999999999331988266665457322800000000000000000000000000000000, 1939953287025534343993829685073678000000000000000000),
  (999999999999999967633070219449142800000000000000000000000000000000, 102076330700722875172351418969603700000000000000000),
  (999999999999999998791168502193647600000000000000000000000000000000, 4140244170570964713882401732612752000000000000000),
  (999999999999999999965975758028139300000000000000000000000000000000, 126561752911340477370724329433201400000000000000),
  (999999999999999999999295730356382000000000000000000000000000000000, 2845256378743593517996194574660266000000000000),
  (999999999999999999999989560694199200000000000000000000000000000000, 45807314039980886821423832464721140000000000),
  (999999999999999999999999892341952300000000000000000000000000000000, 513098747526944236012633963558181300000000),
  (999999999999999999999999999251410900000000000000000000000000000000, 3875235336602947829611475934710427000000),
  (999999999999999999999999999996607900000000000000000000000000000000, 19073533928058784623456133358739950000)]

/-- n = 93. quadrature_lib.cpp:9375-9467. -/
def b93 : List (Nat × Nat) := [
  (1834296001829712714856702061048190000, 10318858646799021553777747841788420000),
  (406569523107908683024721545773695300000, 2107142844446760781703390906030247000000),
  (58910536859937153686585836199563700000000, 281291305080480695884209971264946700000000),
  (5770439137171857914182153421479224000000000, 25385452638458477121182934228715440000000000),
  (394095428686442360379223528908891400000000000, 1597350548057400127520517060548839000000000000),
  (19307849383875616321078492839397570000000000000, 72105334473526799158487747182294230000000000000),
  (696622390502732002916504328659549900000000000000, 2397063584437756984294360036088855000000000000000),
  (18962147713209118775169597585024050000000000000000, 60122183407238552771011879729147120000000000000000),
  (398175902670442152630476982667022300000000000000000, 1163340036493370572683704912670553000000000000000000),
  (6583714191999970603315489053338340000000000000000000, 17725969075633607989680196481240650000000000000000000),
  (87354882233564005961878618534375650000000000000000000, 216750648576209182365326965958367000000000000000000000),
  (946435669216187361911268177175650000000000000000000000, 2164363426818674876309446573974132000000000000000000000),
  (8508578835666105397557726751582023000000000000000000000, 17934911924078533134502391060865600000000000000000000000),
  (64418869220806111860066790570087030000000000000000000000, 125170596139369999087587066576136300000000000000000000000),
  (416374947197109247948581678903489600000000000000000000000, 745885973907950374373341142792708800000000000000000000000),
  (2326665082105264074114634645854380000000000000000000000000, 3843094683468308027801635624751059000000000000000000000000),
  (11370961870341065062237400242529600000000000000000000000000, 17321089771303403037344117326158130000000000000000000000000),
  (49126823120314956884977267348312600000000000000000000000000, 69025803465569650288869787180747300000000000000000000000000),
  (189487916274853633888064867250077700000000000000000000000000, 245633598191804820130166325616967100000000000000000000000000),
  (658471346894569713133784919812970100000000000000000000000000, 787721011513934327861542694863616400000000000000000000000000),
  (2078884652973656042786244926281370000000000000000000000000000, 2295783910673193610683303528944543000000000000000000000000000),
  (6009336025445952591550880106035713000000000000000000000000000, 6128453278473268874894400545936725000000000000000000000000000),
  (16018823785882389024355536166835290000000000000000000000000000, 15092581293101527858244192629043730000000000000000000000000000),
  (39637783764383791138167750031842850000000000000000000000000000, 34519490703438301444723172919037360000000000000000000000000000),
  (91602709823785292590476552736724620000000000000000000000000000, 73778539318018791759563630729269730000000000000000000000000000),
  (198823569359037604742306858471092800000000000000000000000000000, 148194686001183894736373508416242100000000000000000000000000000),
  (407414604453344121551451642498450200000000000000000000000000000, 281223053784403779253979941436692300000000000000000000000000000),
  (791922307509857555491446510065580700000000000000000000000000000, 506615610000744792364434216957193100000000000000000000000000000),
  (1466569258002837399437129967267548000000000000000000000000000000, 870220407264661023478654490332591000000000000000000000000000000),
  (2597942135804111157050284665172966000000000000000000000000000000, 1430999460828052377474598844917660000000000000000000000000000000),
  (4418128424193646477479526673186576000000000000000000000000000000, 2260837536751952631221404697626894000000000000000000000000000000),
  (7236884077726889520713702314751465000000000000000000000000000000, 3442728575579366954762726866104330000000000000000000000000000000),
  (11451015518878980727166049883017450000000000000000000000000000000, 5066957704096212112123286295775674000000000000000000000000000000),
  (17548801085880215429735628781757820000000000000000000000000000000, 7224949760907346997611130744991975000000000000000000000000000000),
  (26106994469520386184304750304352790000000000000000000000000000000, 10000561063455788480569189224065610000000000000000000000000000000),
  (37777824618379979924995470900116390000000000000000000000000000000, 13458804973073068039510192929258440000000000000000000000000000000),
  (53263573045653818086027965886627500000000000000000000000000000000, 17632386790312518062484129887245880000000000000000000000000000000),
  (73276965400370981336431722328886640000000000000000000000000000000, 22507020330875646237571261506421100000000000000000000000000000000),
  (98486967050729699206242183905010320000000000000000000000000000000, 28007284065594035245114173939160790000000000000000000000000000000),
  (129451756421065588414692427375853200000000000000000000000000000000, 33985619006865659912283156820291010000000000000000000000000000000),
  (166543604009247509403435113585995500000000000000000000000000000000, 40217712391603878061715702680572290000000000000000000000000000000),
  (209873729072669596048188121670369500000000000000000000000000000000, 46407583064200970192189218682821400000000000000000000000000000000),
  (259228178235220670306621528310157400000000000000000000000000000000, 52204815745583705673642651780292200000000000000000000000000000000),
  (314027311019977901102313003872513500000000000000000000000000000000, 57234391856796825162518177390858010000000000000000000000000000000),
  (373320514703004546529860955667928900000000000000000000000000000000, 61136631011993339890002807516061920000000000000000000000000000000),
  (435823677194676804665343330902493700000000000000000000000000000000, 63611584013626815166772253163671880000000000000000000000000000000),
  (500000000000000000000000000000000000000000000000000000000000000000, 64459879212621892399323554511681060000000000000000000000000000000),
  (564176322805323195334656669097506300000000000000000000000000000000, 63611584013626815166772253163671880000000000000000000000000000000),
  (626679485296995453470139044332071100000000000000000000000000000000, 61136631011993339890002807516061920000000000000000000000000000000),
  (685972688980022098897686996127486500000000000000000000000000000000, 57234391856796825162518177390858010000000000000000000000000000000),
  (740771821764779329693378471689842500000000000000000000000000000000, 52204815745583705673642651780292200000000000000000000000000000000),
  (790126270927330403951811878329630400000000000000000000000000000000, 46407583064200970192189218682821400000000000000000000000000000000),
  (833456395990752490596564886414004400000000000000000000000000000000, 40217712391603878061715702680572290000000000000000000000000000000),
  (870548243578934411585307572624146800000000000000000000000000000000, 33985619006865659912283156820291040000000000000000000000000000000),
  (901513032949270300793757816094989700000000000000000000000000000000, 28007284065594035245114173939160790000000000000000000000000000000),
  (926723034599629018663568277671113200000000000000000000000000000000, 22507020330875646237571261506421100000000000000000000000000000000),
  (946736426954346181913972034113372600000000000000000000000000000000, 17632386790312518062484129887245880000000000000000000000000000000),
  (962222175381620020075004529099883600000000000000000000000000000000, 13458804973073068039510192929258440000000000000000000000000000000),
  (973893005530479613815695249695647100000000000000000000000000000000, 10000561063455788480569189224065610000000000000000000000000000000),
  (982451198914119784570264371218242300000000000000000000000000000000, 7224949760907346997611130744991975000000000000000000000000000000),
  (988548984481121019272833950116982600000000000000000000000000000000, 5066957704096212112123286295775674000000000000000000000000000000),
  (992763115922273110479286297685248600000000000000000000000000000000, 3442728575579366954762726866104330000000000000000000000000000000),
  (995581871575806353522520473326813300000000000000000000000000000000, 2260837536751952631221404697626892000000000000000000000000000000),
  (997402057864195888842949715334826900000000000000000000000000000000, 1430999460828052377474598844917660000000000000000000000000000000),
  (998533430741997162600562870032732500000000000000000000000000000000, 870220407264661023478654490332591000000000000000000000000000000),
  (999208077692490142444508553489934400000000000000000000000000000000, 506615610000744792364434216957193100000000000000000000000000000),
  (999592585395546655878448548357501600000000000000000000000000000000, 281223053784403779253979941436692300000000000000000000000000000),
  (999801176430640962395257693141528900000000000000000000000000000000, 148194686001183894736373508416242100000000000000000000000000000),
  (999908397290176214707409523447263200000000000000000000000000000000, 73778539318018791759563630729269710000000000000000000000000000),
  (999960362216235616208861832249968200000000000000000000000000000000, 34519490703438301444723172919037360000000000000000000000000000),
  (999983981176214117610975644463833100000000000000000000000000000000, 15092581293101527858244192629043720000000000000000000000000000),
  (999993990663974554047408449119894000000000000000000000000000000000, 6128453278473268874894400545936719000000000000000000000000000),
  (999997921115347026343957213755073600000000000000000000000000000000, 2295783910673193610683303528944543000000000000000000000000000),
  (999999341528653105430286866215080100000000000000000000000000000000, 787721011513934327861542694863616400000000000000000000000000),
  (999999810512083725146366111935132700000000000000000000000000000000, 245633598191804820130166325616967100000000000000000000000000),
  (999999950873176879685043115022732600000000000000000000000000000000, 69025803465569650288869787180747300000000000000000000000000),
  (999999988629038129658934937762599800000000000000000000000000000000, 17321089771303403037344117326158130000000000000000000000000),
  (999999997673334917894735925885365500000000000000000000000000000000, 3843094683468308027801635624751070000000000000000000000000),
  (999999999583625052802890752051418300000000000000000000000000000000, 745885973907950374373341142792708800000000000000000000000),
  (999999999935581130779193888139933300000000000000000000000000000000, 125170596139369999087587066576136300000000000000000000000),
  (999999999991491421164333894602442300000000000000000000000000000000, 17934911924078533134502391060865600000000000000000000000),
  (999999999999053564330783812638088800000000000000000000000000000000, 2164363426818674876309446573974132000000000000000000000),
  (999999999999912645117766435994038100000000000000000000000000000000, 216750648576209182365326965958367000000000000000000000),
  (999999999999993416285808000029396600000000000000000000000000000000, 17725969075633607989680196481240650000000000000000000),
  (999999999999999601824097329557847200000000000000000000000000000000, 1163340036493370572683704912670553000000000000000000),
  (999999999999999981037852286790881200000000000000000000000000000000, 60122183407238552771011879729146750000000000000000),
  (999999999999999999303377609497268100000000000000000000000000000000, 2397063584437756984294360036088855000000000000000),
  (999999999999999999980692150616124400000000000000000000000000000000, 72105334473526799158487747182294210000000000000),
  (999999999999999999999605904571313500000000000000000000000000000000, 1597350548057400127520517060548848000000000000),
  (999999999999999999999994229560862900000000000000000000000000000000, 25385452638458477121182934228715440000000000),
  (999999999999999999999999941089463200000000000000000000000000000000, 281291305080480695884209971264946700000000),
  (999999999999999999999999999593430400000000000000000000000000000000, 2107142844446760781703390906030247000000),
  (999999999999999999999999999998165700000000000000000000000000000000, 10318858646799021553777747841788420000)]

/-- n = 94. quadrature_lib.cpp:9468-9561. -/
def b94 : List (Nat × Nat) := [
  (992985778162805249191255827226995500, 5588579893943199691023341131936134000),
  (221037121063334771001670212329864300000, 1146884006340711354849872636905185000000),
  (32264326381338750675103935988776970000000, 154340437837456976953761396974645800000000),
  (3191957227727682520770881814272480000000000, 14077491312264017861417958915729340000000000),
  (220643466168682171325018932799554000000000000, 897180948798962319565936378557458600000000000),
  (10960120293385034689250112090150170000000000000, 41090029752450034748179026532785860000000000000),
  (401485171732045422135184626530999600000000000000, 1387829818624347217450463537017059000000000000000),
  (11107512833619984223487502840471570000000000000000, 35403391468869074046322807573518470000000000000000),
  (237253488906170611727172007339684400000000000000000, 697301401365100134813623820384803500000000000000000),
  (3992709266007058801469373188684917000000000000000000, 10821247211789236637316969296844210000000000000000000),
  (53939480225799517263400606218420330000000000000000000, 134816715062739242155303459686309000000000000000000000),
  (595144215242552608715620544632542500000000000000000000, 1371881866916654421991896531730653000000000000000000000),
  (5449088025643782226917782061595168000000000000000000000, 11585407100441056211375508716269530000000000000000000000),
  (42013076181583025353989625496715610000000000000000000000, 82396092521331396932536997757925030000000000000000000000),
  (276491936995402669577751583659533800000000000000000000000, 500251331614597999621965761379562700000000000000000000000),
  (1572680141592433601851856677273169000000000000000000000000, 2625351099117743702787989892107463000000000000000000000000),
  (7820979576443380630978640884197891000000000000000000000000, 12048055447428564618616398379454700000000000000000000000000),
  (34368533739707681496914981041829150000000000000000000000000, 48865800283592101254163469898972840000000000000000000000000),
  (134772175440251185382107650000725400000000000000000000000000, 176899100662633973772962221052951000000000000000000000000000),
  (475895199107019712344388110890239300000000000000000000000000, 576802771775925279995600709132759300000000000000000000000000),
  (1525895866640206019455728681137750000000000000000000000000000, 1708281680278989027958326805375872000000000000000000000000000),
  (4477067483092069163717626902511362000000000000000000000000000, 4631229381802532395140074898641357000000000000000000000000000),
  (12106375240644152653932570308948150000000000000000000000000000, 11576009500196741104300556526576070000000000000000000000000000),
  (30370131378373585975245554888238260000000000000000000000000000, 26855604305922817135480973918501690000000000000000000000000000),
  (71110394276662660491379208631146210000000000000000000000000000, 58182984761077216012533542102702070000000000000000000000000000),
  (156283249245936949247953111049381900000000000000000000000000000, 118389185162453008953691678387495100000000000000000000000000000),
  (324066810025322671549562707082086700000000000000000000000000000, 227438033560143329343178911081709300000000000000000000000000000),
  (637047098229349566641450205737086000000000000000000000000000000, 414522449723791644784572096225678000000000000000000000000000000),
  (1192414255793014051305178245596383000000000000000000000000000000, 719930343971766502468789386226610700000000000000000000000000000),
  (2133754738415105189190216582916654000000000000000000000000000000, 1196305025596855163627705409329271000000000000000000000000000000),
  (3663634916212810540076783758828100000000000000000000000000000000, 1908900865887629457871501802461730000000000000000000000000000000),
  (6055773395274596975122253075987454000000000000000000000000000000, 2934441176025822262347414073654183000000000000000000000000000000),
  (9665217258725934138808966003205324000000000000000000000000000000, 4358209388438931155624896619504465000000000000000000000000000000),
  (14934586728618381418755469303143220000000000000000000000000000000, 6269044548059530494295172026921753000000000000000000000000000000),
  (22394156939570469474801048725756340000000000000000000000000000000, 8751987323665010599689822135924220000000000000000000000000000000),
  (32653359812300922552588100200278060000000000000000000000000000000, 11878476675800170305580932571703670000000000000000000000000000000),
  (46381320500748200899319146346652300000000000000000000000000000000, 15694287536638192505312948454432920000000000000000000000000000000),
  (64274454355506918919951079050681650000000000000000000000000000000, 20205875418033674036524549437322350000000000000000000000000000000),
  (87010135591345949678910828172348640000000000000000000000000000000, 25366461306427824914181834551128670000000000000000000000000000000),
  (115187170382465992538133387640779600000000000000000000000000000000, 31063973924563230811892084244870710000000000000000000000000000000),
  (149256296742698415902452423292059700000000000000000000000000000000, 37113677172387725098857436411268060000000000000000000000000000000),
  (189446975109356184876095785829062500000000000000000000000000000000, 43258645950618951016212809646108200000000000000000000000000000000),
  (235699774367462795353888524837757300000000000000000000000000000000, 49180859482823904182209357346639650000000000000000000000000000000),
  (287615819617091523511594521999377400000000000000000000000000000000, 54524288804937625415122265270588970000000000000000000000000000000),
  (344435023195831542596340701009869800000000000000000000000000000000, 58928967782350094563753118261230100000000000000000000000000000000),
  (405052350388088122434947716085444300000000000000000000000000000000, 62072084108777043657360889749275010000000000000000000000000000000),
  (468076007833531091954142397390442400000000000000000000000000000000, 63709461550089997680460540364983860000000000000000000000000000000),
  (531923992166468908045857602609557600000000000000000000000000000000, 63709461550089997680460540364983860000000000000000000000000000000),
  (594947649611911877565052283914555800000000000000000000000000000000, 62072084108777043657360889749275010000000000000000000000000000000),
  (655564976804168457403659298990130300000000000000000000000000000000, 58928967782350094563753118261230100000000000000000000000000000000),
  (712384180382908476488405478000622700000000000000000000000000000000, 54524288804937625415122265270588970000000000000000000000000000000),
  (764300225632537204646111475162242600000000000000000000000000000000, 49180859482823904182209357346639650000000000000000000000000000000),
  (810553024890643815123904214170937500000000000000000000000000000000, 43258645950618951016212809646108200000000000000000000000000000000),
  (850743703257301584097547576707940300000000000000000000000000000000, 37113677172387725098857436411268060000000000000000000000000000000),
  (884812829617534007461866612359220400000000000000000000000000000000, 31063973924563230811892084244870710000000000000000000000000000000),
  (912989864408654050321089171827651300000000000000000000000000000000, 25366461306427824914181834551128660000000000000000000000000000000),
  (935725545644493081080048920949318400000000000000000000000000000000, 20205875418033674036524549437322350000000000000000000000000000000),
  (953618679499251799100680853653347600000000000000000000000000000000, 15694287536638192505312948454432920000000000000000000000000000000),
  (967346640187699077447411899799721900000000000000000000000000000000, 11878476675800170305580932571703670000000000000000000000000000000),
  (977605843060429530525198951274243700000000000000000000000000000000, 8751987323665010599689822135924220000000000000000000000000000000),
  (985065413271381618581244530696856800000000000000000000000000000000, 6269044548059530494295172026921753000000000000000000000000000000),
  (990334782741274065861191033996794800000000000000000000000000000000, 4358209388438931155624896619504465000000000000000000000000000000),
  (993944226604725403024877746924012400000000000000000000000000000000, 2934441176025822262347414073654183000000000000000000000000000000),
  (996336365083787189459923216241171900000000000000000000000000000000, 1908900865887629457871501802461729000000000000000000000000000000),
  (997866245261584894810809783417083400000000000000000000000000000000, 1196305025596855163627705409329271000000000000000000000000000000),
  (998807585744206985948694821754403700000000000000000000000000000000, 719930343971766502468789386226610600000000000000000000000000000),
  (999362952901770650433358549794263000000000000000000000000000000000, 414522449723791644784572096225678000000000000000000000000000000),
  (999675933189974677328450437292917800000000000000000000000000000000, 227438033560143329343178911081709300000000000000000000000000000),
  (999843716750754063050752046888950600000000000000000000000000000000, 118389185162453008953691678387495100000000000000000000000000000),
  (999928889605723337339508620791368800000000000000000000000000000000, 58182984761077216012533542102702070000000000000000000000000000),
  (999969629868621626414024754445111800000000000000000000000000000000, 26855604305922817135480973918501690000000000000000000000000000),
  (999987893624759355847346067429691100000000000000000000000000000000, 11576009500196741104300556526576070000000000000000000000000000),
  (999995522932516907930836282373097500000000000000000000000000000000, 4631229381802532395140074898641366000000000000000000000000000),
  (999998474104133359793980544271319000000000000000000000000000000000, 1708281680278989027958326805375872000000000000000000000000000),
  (999999524104800892980287655611889200000000000000000000000000000000, 576802771775925279995600709132759300000000000000000000000000),
  (999999865227824559748814617892350100000000000000000000000000000000, 176899100662633973772962221052951000000000000000000000000000),
  (999999965631466260292318503085018900000000000000000000000000000000, 48865800283592101254163469898972840000000000000000000000000),
  (999999992179020423556619369021359200000000000000000000000000000000, 12048055447428564618616398379454700000000000000000000000000),
  (999999998427319858407566398148143400000000000000000000000000000000, 2625351099117743702787989892107463000000000000000000000000),
  (999999999723508063004597330422248500000000000000000000000000000000, 500251331614597999621965761379562600000000000000000000000),
  (999999999957986923818416974646010300000000000000000000000000000000, 82396092521331396932536997757925300000000000000000000000),
  (999999999994550911974356217773082200000000000000000000000000000000, 11585407100441056211375508716269530000000000000000000000),
  (999999999999404855784757447391284400000000000000000000000000000000, 1371881866916654421991896531730653000000000000000000000),
  (999999999999946060519774200482736600000000000000000000000000000000, 134816715062739242155303459686309000000000000000000000),
  (999999999999996007290733992941198500000000000000000000000000000000, 10821247211789236637316969296844210000000000000000000),
  (999999999999999762746511093829388400000000000000000000000000000000, 697301401365100134813623820384803500000000000000000),
  (999999999999999988892487166380015800000000000000000000000000000000, 35403391468869074046322807573518470000000000000000),
  (999999999999999999598514828267954600000000000000000000000000000000, 1387829818624347217450463537017050000000000000000),
  (999999999999999999989039879706615000000000000000000000000000000000, 41090029752450034748179026532786110000000000000),
  (999999999999999999999779356533831300000000000000000000000000000000, 897180948798962319565936378557464100000000000),
  (999999999999999999999996808042772300000000000000000000000000000000, 14077491312264017861417958915729340000000000),
  (999999999999999999999999967735673500000000000000000000000000000000, 154340437837456976953761396974645800000000),
  (999999999999999999999999999778962900000000000000000000000000000000, 1146884006340711354849872636905185000000),
  (999999999999999999999999999999007000000000000000000000000000000000, 5588579893943199691023341131936134000)]

/-- n = 95. quadrature_lib.cpp:9562-9656. -/
def b95 : List (Nat × Nat) := [
  (538125156312687408540635478944189600, 3029941300502245561864124908507328000),
  (120289899987404243203243558208430800000, 624840810601659047086687421860851000000),
  (17686069389113608258417211848800810000000, 84755444261341492397358652914557510000000),
  (1766908274144494262604163034217123000000000, 7811856842680762011554277873636732000000000),
  (123596965375670923502021811514505700000000000, 504151882263701867563649624379031300000000000),
  (6223499116391092930361477480863139000000000000, 23421380143874252924086795860406580000000000000),
  (231412072090976357869095525459849700000000000000, 803527960390402767824559772700019500000000000000),
  (6505720385621058468436337023146504000000000000000, 20843114829913507617935248708475390000000000000000),
  (141320391543145015467911064565645600000000000000000, 417774624562972993041286783809680100000000000000000),
  (2420062118197560007576903305453457000000000000000000, 6601681802849095987657689731792469000000000000000000),
  (33281242659670323572621312884094820000000000000000000, 83780499154712553502767793987130400000000000000000000),
  (373888652346076380933259209028695200000000000000000000, 868619919021403706988257950635799200000000000000000000),
  (3485786612682401357571554525291749000000000000000000000, 7474224674348064584713785981660919000000000000000000000),
  (27364868062389073610894000178589570000000000000000000000, 54159692920682008489043857884337250000000000000000000000),
  (183337658048837149020719324274235200000000000000000000000, 334964294101194359444351181157650800000000000000000000000),
  (1061350680393697512699132473545800000000000000000000000000, 1790293875943330718500088947560061000000000000000000000000),
  (5370128534237624819795595251532191000000000000000000000000, 8364360236867721308954237455308204000000000000000000000000),
  (24000349075679689592123670087850000000000000000000000000000, 34524176681760767387507800210753190000000000000000000000000),
  (95674206043945610222329732811701860000000000000000000000000, 127129516175939754002139762430743400000000000000000000000000),
  (343265622977033460074475705742406100000000000000000000000000, 421435107505850558638666075760728200000000000000000000000000),
  (1117736460813228138988578837321504000000000000000000000000000, 1268263043185789915529303562979736000000000000000000000000000),
  (3328610224756803769691843263803394000000000000000000000000000, 3491751039423740971398795827107851000000000000000000000000000),
  (9130369576839580964197019688687900000000000000000000000000000, 8858151344029686392270892096750079000000000000000000000000000),
  (23220384342723709306342701056896050000000000000000000000000000, 20844357020725223382500690400156850000000000000000000000000000),
  (55086316547855373145431498058492740000000000000000000000000000, 45776811358888157135621389275097230000000000000000000000000000),
  (122588170041753002301393359229963900000000000000000000000000000, 94358572433320314389032771057880960000000000000000000000000000),
  (257237517088728632269366733199713400000000000000000000000000000, 183517006499721918262612194843453600000000000000000000000000000),
  (511418228037641801936664720997788200000000000000000000000000000, 338402198269714709543529178084023700000000000000000000000000000),
  (967573424792336532865285626931563200000000000000000000000000000, 594269736364352965331682949468482500000000000000000000000000000),
  (1749079331559221822931432898420000000000000000000000000000000000, 997911784599478247595133983431350600000000000000000000000000000),
  (3032170727156448113024487124283335000000000000000000000000000000, 1608266592791040591310835768678276000000000000000000000000000000),
  (5057909591648614126586380864851630000000000000000000000000000000, 2495834413518076252893435808548254000000000000000000000000000000),
  (8142824165423277868137130566390546000000000000000000000000000000, 3740545515015178562045579116268233000000000000000000000000000000),
  (12686505610234972416433495034379230000000000000000000000000000000, 5427756939370424356318890440652703000000000000000000000000000000),
  (19174150304837927799774713218768290000000000000000000000000000000, 7642108942640762137434099634339163000000000000000000000000000000),
  (28171815153119923991794442095985530000000000000000000000000000000, 10459081913886305630215621596046190000000000000000000000000000000),
  (40312090586509178291945338845750800000000000000000000000000000000, 13934309683895481346202701216130160000000000000000000000000000000),
  (56268122812617350239644858946701230000000000000000000000000000000, 18091076481697785452927586127537580000000000000000000000000000000),
  (76714605673644360133209804040540710000000000000000000000000000000, 22906977628427988097999190283933200000000000000000000000000000000),
  (102275683691299755166920755371184400000000000000000000000000000000, 28301423232177414682513428721501310000000000000000000000000000000),
  (133461752271349257096670535344467600000000000000000000000000000000, 34126380791668374558253851522621950000000000000000000000000000000),
  (170599816276968309171288829952970200000000000000000000000000000000, 40163249827361919564299167347101040000000000000000000000000000000),
  (213765000873249654791999855657535100000000000000000000000000000000, 46128724222925613520527331874561940000000000000000000000000000000),
  (262723307532066991253450279776597300000000000000000000000000000000, 51691627122762156782694633658201680000000000000000000000000000000),
  (316896854798463496829289589541780000000000000000000000000000000000, 56500871954445893708835350701912330000000000000000000000000000000),
  (375361748415341124103917317310069500000000000000000000000000000000, 60222120044892211986398912955515230000000000000000000000000000000),
  (436884913324230769588752523811680000000000000000000000000000000000, 62577988863180358299515661995934650000000000000000000000000000000),
  (500000000000000000000000000000000000000000000000000000000000000000, 63384727112716088226316345793434840000000000000000000000000000000),
  (563115086675769230411247476188320000000000000000000000000000000000, 62577988863180358299515661995934650000000000000000000000000000000),
  (624638251584658875896082682689930500000000000000000000000000000000, 60222120044892211986398912955515230000000000000000000000000000000),
  (683103145201536503170710410458220000000000000000000000000000000000, 56500871954445893708835350701912330000000000000000000000000000000),
  (737276692467933008746549720223402800000000000000000000000000000000, 51691627122762156782694633658201680000000000000000000000000000000),
  (786234999126750345208000144342464900000000000000000000000000000000, 46128724222925613520527331874561930000000000000000000000000000000),
  (829400183723031690828711170047029800000000000000000000000000000000, 40163249827361919564299167347101050000000000000000000000000000000),
  (866538247728650742903329464655532400000000000000000000000000000000, 34126380791668374558253851522621950000000000000000000000000000000),
  (897724316308700244833079244628815600000000000000000000000000000000, 28301423232177414682513428721501310000000000000000000000000000000),
  (923285394326355639866790195959459300000000000000000000000000000000, 22906977628427988097999190283933200000000000000000000000000000000),
  (943731877187382649760355141053298700000000000000000000000000000000, 18091076481697785452927586127537580000000000000000000000000000000),
  (959687909413490821708054661154249100000000000000000000000000000000, 13934309683895481346202701216130160000000000000000000000000000000),
  (971828184846880076008205557904014400000000000000000000000000000000, 10459081913886305630215621596046190000000000000000000000000000000),
  (980825849695162072200225286781231800000000000000000000000000000000, 7642108942640762137434099634339163000000000000000000000000000000),
  (987313494389765027583566504965620800000000000000000000000000000000, 5427756939370424356318890440652703000000000000000000000000000000),
  (991857175834576722131862869433609500000000000000000000000000000000, 3740545515015178562045579116268236000000000000000000000000000000),
  (994942090408351385873413619135148300000000000000000000000000000000, 2495834413518076252893435808548251000000000000000000000000000000),
  (996967829272843551886975512875716700000000000000000000000000000000, 1608266592791040591310835768678277000000000000000000000000000000),
  (998250920668440778177068567101579900000000000000000000000000000000, 997911784599478247595133983431350600000000000000000000000000000),
  (999032426575207663467134714373068500000000000000000000000000000000, 594269736364352965331682949468482500000000000000000000000000000),
  (999488581771962358198063335279002200000000000000000000000000000000, 338402198269714709543529178084023700000000000000000000000000000),
  (999742762482911271367730633266800300000000000000000000000000000000, 183517006499721918262612194843453600000000000000000000000000000),
  (999877411829958246997698606640770100000000000000000000000000000000, 94358572433320314389032771057881080000000000000000000000000000),
  (999944913683452144626854568501941500000000000000000000000000000000, 45776811358888157135621389275097290000000000000000000000000000),
  (999976779615657276290693657298943100000000000000000000000000000000, 20844357020725223382500690400156850000000000000000000000000000),
  (999990869630423160419035802980311300000000000000000000000000000000, 8858151344029686392270892096750080000000000000000000000000000),
  (999996671389775243196230308156736100000000000000000000000000000000, 3491751039423740971398795827107851000000000000000000000000000),
  (999998882263539186771861011421162800000000000000000000000000000000, 1268263043185789915529303562979736000000000000000000000000000),
  (999999656734377022966539925524294300000000000000000000000000000000, 421435107505850558638666075760728200000000000000000000000000),
  (999999904325793956054389777670267200000000000000000000000000000000, 127129516175939754002139762430743400000000000000000000000000),
  (999999975999650924320310407876330000000000000000000000000000000000, 34524176681760767387507800210753190000000000000000000000000),
  (999999994629871465762375180204404700000000000000000000000000000000, 8364360236867721308954237455308204000000000000000000000000),
  (999999998938649319606302487300867600000000000000000000000000000000, 1790293875943330718500088947560061000000000000000000000000),
  (999999999816662341951162850979280700000000000000000000000000000000, 334964294101194359444351181157650800000000000000000000000),
  (999999999972635131937610926389106000000000000000000000000000000000, 54159692920682008489043857884337250000000000000000000000),
  (999999999996514213387317598642428400000000000000000000000000000000, 7474224674348064584713785981660919000000000000000000000),
  (999999999999626111347653923619066700000000000000000000000000000000, 868619919021403706988257950635799200000000000000000000),
  (999999999999966718757340329676427300000000000000000000000000000000, 83780499154712553502767793987130400000000000000000000),
  (999999999999997579937881802439992400000000000000000000000000000000, 6601681802849095987657689731792469000000000000000000),
  (999999999999999858679608456854984500000000000000000000000000000000, 417774624562972993041286783809680100000000000000000),
  (999999999999999993494279614378941600000000000000000000000000000000, 20843114829913507617935248708475390000000000000000),
  (999999999999999999768587927909023600000000000000000000000000000000, 803527960390402767824559772700019500000000000000),
  (999999999999999999993776500883608900000000000000000000000000000000, 23421380143874252924086795860406580000000000000),
  (999999999999999999999876403034624200000000000000000000000000000000, 504151882263701867563649624379031300000000000),
  (999999999999999999999998233091725900000000000000000000000000000000, 7811856842680762011554277873636732000000000),
  (999999999999999999999999982313930500000000000000000000000000000000, 84755444261341492397358652914557510000000),
  (999999999999999999999999999879710100000000000000000000000000000000, 624840810601659047086687421860851000000),
  (999999999999999999999999999999461900000000000000000000000000000000, 3029941300502245561864124908507328000)]

/-- n = 96. quadrature_lib.cpp:9657-9752. -/
def b96 : List (Nat × Nat) := [
  (291933484307332701297166207068156200, 1644461518313915688098240241198518000),
  (65527147760966750295545721632293620000, 340752075767362825192715980198484900000),
  (9703204291214908752785575395242104000000, 46581812242031245756598484602696260000000),
  (978762866771588567506982031352513900000000, 4337807730946790639176219205170960000000000),
  (69270985020776273758682322253859950000000000, 283429310681643287484735176466568300000000000),
  (3535034289721599095120295289332731000000000000, 13353593165267620322969151511180260000000000000),
  (133398439775136314305157468491173600000000000000, 465241798663446133127121700210969400000000000000),
  (3810035221385501563551001058870240000000000000000, 12268597671565521409771753974651660000000000000000),
  (84150984956085598009711732762642510000000000000000, 250195846985343702021238092373969800000000000000000),
  (1466076491889168363791069860387778000000000000000000, 4024875237346556456721729975583387000000000000000000),
  (20519941518812732550485116251172770000000000000000000, 52019982207280325374336568886049970000000000000000000),
  (234672993876565669409073722440930700000000000000000000, 549392733168828390632689300302723900000000000000000000),
  (2227412928410277231125824914437639000000000000000000000, 4815910541636337099239050423350193000000000000000000000),
  (17801363077251641827145823870824640000000000000000000000, 35548928803772985827233296506547300000000000000000000000),
  (121396525517729569918386137122534400000000000000000000000, 223933621616586609300148296656580800000000000000000000000),
  (715160790551705100748476647792709500000000000000000000000, 1218732326948156284264827389955438000000000000000000000000),
  (3681138654019968703176642708123662000000000000000000000000, 5796143036363998864138599098753662000000000000000000000000),
  (16730255614604841558288772394527110000000000000000000000000, 24343491665909795068958312421615090000000000000000000000000),
  (67792130198961245303913103138804200000000000000000000000000, 91172987710249869388894262696450250000000000000000000000000),
  (247119587776173472576038201237619400000000000000000000000000, 307254379453168757526551243875778600000000000000000000000000),
  (817121323607509788676783706505299100000000000000000000000000, 939496799499158369735683130472818700000000000000000000000000),
  (2469710670132984973998208824357818000000000000000000000000000, 2626670187103831641788231044680613000000000000000000000000000),
  (6871695896166678354064124975222276000000000000000000000000000, 6762833919028229336744274079630776000000000000000000000000000),
  (17716870951486357939479025020354780000000000000000000000000000, 16141217756996319068207252781992560000000000000000000000000000),
  (42584198121158281846697485014831840000000000000000000000000000, 35932584628440867367698412049629040000000000000000000000000000),
  (95958446228933888752713656788766230000000000000000000000000000, 75032429420463404661735793109272070000000000000000000000000000),
  (203770639884513921543858403600128200000000000000000000000000000, 147739881147344049854747056381890700000000000000000000000000000),
  (409733308825556311020059363911238400000000000000000000000000000, 275638685965252433919785516901428700000000000000000000000000000),
  (783568248121535130948292887635017800000000000000000000000000000, 489456992207621180312918208527062200000000000000000000000000000),
  (1430961823504062147794584171773768000000000000000000000000000000, 830608514911092891208080843164200200000000000000000000000000000),
  (2504761480225437206474279792417125000000000000000000000000000000, 1352075434217255590412816091480689000000000000000000000000000000),
  (4216579853942150176237775239793466000000000000000000000000000000, 2118282786778902394749517218909851000000000000000000000000000000),
  (6847626996314100955228587957052164000000000000000000000000000000, 3203625533321209678533235162215261000000000000000000000000000000),
  (10757263656737914591530099009617850000000000000000000000000000000, 4689333855591282260061103860860919000000000000000000000000000000),
  (16387472292889194380976794480613940000000000000000000000000000000, 6658402444543594392363095047391785000000000000000000000000000000),
  (24261202741600700858764893038494970000000000000000000000000000000, 9188387808847931539083576535789076000000000000000000000000000000),
  (34972423461820684565050163279524190000000000000000000000000000000, 12342034744986924345940785110415570000000000000000000000000000000),
  (49165800186460481158067536195466430000000000000000000000000000000, 16155977693478544065000411319983310000000000000000000000000000000),
  (67504379181647076010050005828197850000000000000000000000000000000, 20628210413130260953733023739591570000000000000000000000000000000),
  (90624636863487970303103212308464720000000000000000000000000000000, 25705621759746139311410712378683270000000000000000000000000000000),
  (119079895025755719575416468892364800000000000000000000000000000000, 31273575830637378243372921402127110000000000000000000000000000000),
  (153275387444387921751291700320642900000000000000000000000000000000, 37150094522608649288714401291740150000000000000000000000000000000),
  (193400971574431554758477321764320900000000000000000000000000000000, 43087414207598544776692235872163950000000000000000000000000000000),
  (239370093338780630911601293989184500000000000000000000000000000000, 48783241214488980935058863190007940000000000000000000000000000000),
  (290775357115612325966118618492049700000000000000000000000000000000, 53902719089777315743427150434234450000000000000000000000000000000),
  (346871055713421229800552632149620300000000000000000000000000000000, 58109983945569529223476746356717610000000000000000000000000000000),
  (406590618936565465883817164760469100000000000000000000000000000000, 61105621355067409277521709485078970000000000000000000000000000000),
  (468602065023481077944572475248477700000000000000000000000000000000, 62664088002028951478191871144549810000000000000000000000000000000),
  (531397934976518922055427524751522300000000000000000000000000000000, 62664088002028951478191871144549810000000000000000000000000000000),
  (593409381063434534116182835239530900000000000000000000000000000000, 61105621355067409277521709485078970000000000000000000000000000000),
  (653128944286578770199447367850379700000000000000000000000000000000, 58109983945569529223476746356717610000000000000000000000000000000),
  (709224642884387674033881381507950300000000000000000000000000000000, 53902719089777315743427150434234450000000000000000000000000000000),
  (760629906661219369088398706010815300000000000000000000000000000000, 48783241214488980935058863190007940000000000000000000000000000000),
  (806599028425568445241522678235679100000000000000000000000000000000, 43087414207598544776692235872163950000000000000000000000000000000),
  (846724612555612078248708299679357100000000000000000000000000000000, 37150094522608649288714401291740150000000000000000000000000000000),
  (880920104974244280424583531107635100000000000000000000000000000000, 31273575830637378243372921402127110000000000000000000000000000000),
  (909375363136512029696896787691535200000000000000000000000000000000, 25705621759746139311410712378683270000000000000000000000000000000),
  (932495620818352923989949994171802000000000000000000000000000000000, 20628210413130260953733023739591580000000000000000000000000000000),
  (950834199813539518841932463804533600000000000000000000000000000000, 16155977693478544065000411319983310000000000000000000000000000000),
  (965027576538179315434949836720475700000000000000000000000000000000, 12342034744986924345940785110415570000000000000000000000000000000),
  (975738797258399299141235106961504900000000000000000000000000000000, 9188387808847931539083576535789073000000000000000000000000000000),
  (983612527707110805619023205519386100000000000000000000000000000000, 6658402444543594392363095047391786000000000000000000000000000000),
  (989242736343262085408469900990382200000000000000000000000000000000, 4689333855591282260061103860860919000000000000000000000000000000),
  (993152373003685899044771412042947800000000000000000000000000000000, 3203625533321209678533235162215258000000000000000000000000000000),
  (995783420146057849823762224760206600000000000000000000000000000000, 2118282786778902394749517218909851000000000000000000000000000000),
  (997495238519774562793525720207582900000000000000000000000000000000, 1352075434217255590412816091480689000000000000000000000000000000),
  (998569038176495937852205415828226200000000000000000000000000000000, 830608514911092891208080843164200200000000000000000000000000000),
  (999216431751878464869051707112365000000000000000000000000000000000, 489456992207621180312918208527062200000000000000000000000000000),
  (999590266691174443688979940636088800000000000000000000000000000000, 275638685965252433919785516901428700000000000000000000000000000),
  (999796229360115486078456141596399900000000000000000000000000000000, 147739881147344049854747056381890700000000000000000000000000000),
  (999904041553771066111247286343211100000000000000000000000000000000, 75032429420463404661735793109272070000000000000000000000000000),
  (999957415801878841718153302514985200000000000000000000000000000000, 35932584628440867367698412049629040000000000000000000000000000),
  (999982283129048513642060520974979600000000000000000000000000000000, 16141217756996319068207252781992580000000000000000000000000000),
  (999993128304103833321645935875024900000000000000000000000000000000, 6762833919028229336744274079630776000000000000000000000000000),
  (999997530289329867015026001791175600000000000000000000000000000000, 2626670187103831641788231044680613000000000000000000000000000),
  (999999182878676392490211323216293500000000000000000000000000000000, 939496799499158369735683130472818700000000000000000000000000),
  (999999752880412223826527423961798700000000000000000000000000000000, 307254379453168757526551243875778500000000000000000000000000),
  (999999932207869801038754696086896900000000000000000000000000000000, 91172987710249869388894262696450250000000000000000000000000),
  (999999983269744385395158441711227500000000000000000000000000000000, 24343491665909795068958312421615100000000000000000000000000),
  (999999996318861345980031296823357200000000000000000000000000000000, 5796143036363998864138599098753661000000000000000000000000),
  (999999999284839209448294899251523300000000000000000000000000000000, 1218732326948156284264827389955438000000000000000000000000),
  (999999999878603474482270430081613900000000000000000000000000000000, 223933621616586609300148296656581500000000000000000000000),
  (999999999982198636922748358172854200000000000000000000000000000000, 35548928803772985827233296506547290000000000000000000000),
  (999999999997772587071589722768874200000000000000000000000000000000, 4815910541636337099239050423350193000000000000000000000),
  (999999999999765327006123434330590800000000000000000000000000000000, 549392733168828390632689300302723900000000000000000000),
  (999999999999979480058481187267449600000000000000000000000000000000, 52019982207280325374336568886049970000000000000000000),
  (999999999999998533923508110831636200000000000000000000000000000000, 4024875237346556456721729975583387000000000000000000),
  (999999999999999915849015043914402000000000000000000000000000000000, 250195846985343702021238092373969800000000000000000),
  (999999999999999996189964778614498500000000000000000000000000000000, 12268597671565521409771753974651660000000000000000),
  (999999999999999999866601560224863600000000000000000000000000000000, 465241798663446133127121700210969400000000000000),
  (999999999999999999996464965710278500000000000000000000000000000000, 13353593165267620322969151511180260000000000000),
  (999999999999999999999930729014979200000000000000000000000000000000, 283429310681643287484735176466568200000000000),
  (999999999999999999999999021237133300000000000000000000000000000000, 4337807730946790639176219205170960000000000),
  (999999999999999999999999990296795700000000000000000000000000000000, 46581812242031245756598484602696260000000),
  (999999999999999999999999999934472900000000000000000000000000000000, 340752075767362825192715980198484900000),
  (999999999999999999999999999999708000000000000000000000000000000000, 1644461518313915688098240241198518000)]

/-- n = 97. quadrature_lib.cpp:9753-9849. -/
def b97 : List (Nat × Nat) := [
  (158539950648696473099334145121761000, 893436951263940292203582137486139900),
  (35730264768498906009716316704627720000, 186003807066787950148618085169902400000),
  (5328074009058692540166716445292720000000, 25622561804740460076092557749376190000000),
  (542556918391945217264418577579452300000000, 2410303238441132468342479865793954000000000),
  (38843775774150143456586419563994020000000000, 159415497266730107613814554775792600000000000),
  (2008602471639498744658855773324336000000000000, 7615456494100668278113154262876454000000000000),
  (76907265245759697942495733261921500000000000000, 269385386545213075602594693473431000000000000000),
  (2231121100768803506168063733999381000000000000000, 7220186679836341209172993072578093000000000000000),
  (50093688339370813471944843371018740000000000000000, 149776335100980697206914548618951300000000000000000),
  (887701422733760062331751659492841500000000000000000, 2452342329095721266168635147212534000000000000000000),
  (12642902559216324367674654068393280000000000000000000, 32272849197517857101109308201400140000000000000000000),
  (147162166856901807434578333476775100000000000000000000, 347127650999062528310746069136119700000000000000000000),
  (1421792039289923179687702668194043000000000000000000000, 3099290527600054807457157806807921000000000000000000000),
  (11565844986964224447135805538061410000000000000000000000, 23300897568960039563055288052873250000000000000000000000),
  (80271229583033398214361369588719990000000000000000000000, 149474220836275811999537792374243400000000000000000000000),
  (481159205624437750860845684068958500000000000000000000000, 828238612964024716318727176758732900000000000000000000000),
  (2519229574243220969454265425778936000000000000000000000000, 4009149752315240111967273661101008000000000000000000000000),
  (11642065869778433142407597065783320000000000000000000000000, 17131673509119485566738467712233710000000000000000000000000),
  (47947631767899359499953512798602190000000000000000000000000, 65253056672116608805338634809131500000000000000000000000000),
  (177564065069205999584541339038287200000000000000000000000000, 223534618680326443515479066975330000000000000000000000000000),
  (596181884064259031181354997965539800000000000000000000000000, 694435634700324599171942193007872600000000000000000000000000),
  (1828751528649647596861980761354698000000000000000000000000000, 1971500046032183872032146781520442000000000000000000000000000),
  (5161209873417071351273930351951969000000000000000000000000000, 5151436047881923298086371711902019000000000000000000000000000),
  (13489910755347620852849687256997400000000000000000000000000000, 12470664613307837909095576345529190000000000000000000000000000),
  (32851534667925701408866525432254100000000000000000000000000000, 28140685915253642159597850075013750000000000000000000000000000),
  (74958949665562844628613486191972470000000000000000000000000000, 59528305710903843733781485963193860000000000000000000000000000),
  (161087701925223174855076804842266600000000000000000000000000000, 118668284067406617181864921210350200000000000000000000000000000),
  (327605816263055720114226525755421200000000000000000000000000000, 224014082574400786485962575733335400000000000000000000000000000),
  (633300541907794440631132311726705200000000000000000000000000000, 402243435033103153015720039681451200000000000000000000000000000),
  (1168432437131026571089570802596637000000000000000000000000000000, 689859120194354712421833359623527500000000000000000000000000000),
  (2065160339939815276762547643100655000000000000000000000000000000, 1134276037929644869682382166360073000000000000000000000000000000),
  (3508660123086802609767662977228802000000000000000000000000000000, 1794066947386521441741126317263521000000000000000000000000000000),
  (5747933442478467498993480727678069000000000000000000000000000000, 2738044206449334749723709302743008000000000000000000000000000000),
  (9104988631853957483812321982624827000000000000000000000000000000, 4042873819266506217374359407189703000000000000000000000000000000),
  (13980786298240044485036289271432150000000000000000000000000000000, 5788948818806317670776243580215802000000000000000000000000000000),
  (20856094094734991924154783624751960000000000000000000000000000000, 8054305179923304114636301378818741000000000000000000000000000000),
  (30285228562838837076365868724424730000000000000000000000000000000, 10906476897651500410607390296688800000000000000000000000000000000),
  (42880655452852969644057536243627680000000000000000000000000000000, 14392401205551254214779426732975770000000000000000000000000000000),
  (59286695627421271003158306793706450000000000000000000000000000000, 18526840148901956163004407238775770000000000000000000000000000000),
  (80141292186123142391412140548321630000000000000000000000000000000, 23280293487846428694315080380668490000000000000000000000000000000),
  (106026073471658546592288417124206000000000000000000000000000000000, 28567996695430264035703369154861290000000000000000000000000000000),
  (137406851179854701342860764943625000000000000000000000000000000000, 34242201676532821170123665207364410000000000000000000000000000000),
  (174569108196853328407972909014854000000000000000000000000000000000, 40090313740219850297642334904347560000000000000000000000000000000),
  (217555596583849113103978903652270500000000000000000000000000000000, 45841337454124773342331623114390270000000000000000000000000000000),
  (266115258536578350297382969741983400000000000000000000000000000000, 51182227281015238002879403687652360000000000000000000000000000000),
  (319673507809539090547916513482048800000000000000000000000000000000, 55784067967628272417359025286193490000000000000000000000000000000),
  (377332729532442905360126667932303800000000000000000000000000000000, 59335736118892503447444859419949680000000000000000000000000000000),
  (437908318089868426117859065739783900000000000000000000000000000000, 61580367070419831822866959870694430000000000000000000000000000000),
  (500000000000000000000000000000000000000000000000000000000000000000, 62348344726385372002964824996626190000000000000000000000000000000),
  (562091681910131573882140934260216100000000000000000000000000000000, 61580367070419831822866959870694430000000000000000000000000000000),
  (622667270467557094639873332067696200000000000000000000000000000000, 59335736118892503447444859419949680000000000000000000000000000000),
  (680326492190460909452083486517951100000000000000000000000000000000, 55784067967628272417359025286193490000000000000000000000000000000),
  (733884741463421649702617030258016600000000000000000000000000000000, 51182227281015238002879403687652360000000000000000000000000000000),
  (782444403416150886896021096347729600000000000000000000000000000000, 45841337454124773342331623114390270000000000000000000000000000000),
  (825430891803146671592027090985146100000000000000000000000000000000, 40090313740219850297642334904347570000000000000000000000000000000),
  (862593148820145298657139235056374900000000000000000000000000000000, 34242201676532821170123665207364410000000000000000000000000000000),
  (893973926528341453407711582875794100000000000000000000000000000000, 28567996695430264035703369154861280000000000000000000000000000000),
  (919858707813876857608587859451678400000000000000000000000000000000, 23280293487846428694315080380668500000000000000000000000000000000),
  (940713304372578728996841693206293500000000000000000000000000000000, 18526840148901956163004407238775770000000000000000000000000000000),
  (957119344547147030355942463756372200000000000000000000000000000000, 14392401205551254214779426732975770000000000000000000000000000000),
  (969714771437161162923634131275575300000000000000000000000000000000, 10906476897651500410607390296688800000000000000000000000000000000),
  (979143905905265008075845216375248000000000000000000000000000000000, 8054305179923304114636301378818741000000000000000000000000000000),
  (986019213701759955514963710728567800000000000000000000000000000000, 5788948818806317670776243580215802000000000000000000000000000000),
  (990895011368146042516187678017375200000000000000000000000000000000, 4042873819266506217374359407189703000000000000000000000000000000),
  (994252066557521532501006519272322000000000000000000000000000000000, 2738044206449334749723709302743009000000000000000000000000000000),
  (996491339876913197390232337022771200000000000000000000000000000000, 1794066947386521441741126317263521000000000000000000000000000000),
  (997934839660060184723237452356899300000000000000000000000000000000, 1134276037929644869682382166360073000000000000000000000000000000),
  (998831567562868973428910429197403300000000000000000000000000000000, 689859120194354712421833359623527500000000000000000000000000000),
  (999366699458092205559368867688273400000000000000000000000000000000, 402243435033103153015720039681451200000000000000000000000000000),
  (999672394183736944279885773474244600000000000000000000000000000000, 224014082574400786485962575733335400000000000000000000000000000),
  (999838912298074776825144923195157800000000000000000000000000000000, 118668284067406617181864921210350200000000000000000000000000000),
  (999925041050334437155371386513808000000000000000000000000000000000, 59528305710903843733781485963193880000000000000000000000000000),
  (999967148465332074298591133474567700000000000000000000000000000000, 28140685915253642159597850075013790000000000000000000000000000),
  (999986510089244652379147150312743100000000000000000000000000000000, 12470664613307837909095576345529190000000000000000000000000000),
  (999994838790126582928648726069648100000000000000000000000000000000, 5151436047881923298086371711902020000000000000000000000000000),
  (999998171248471350352403138019238700000000000000000000000000000000, 1971500046032183872032146781520442000000000000000000000000000),
  (999999403818115935740968818645001900000000000000000000000000000000, 694435634700324599171942193007872600000000000000000000000000),
  (999999822435934930794000415458660800000000000000000000000000000000, 223534618680326443515479066975330000000000000000000000000000),
  (999999952052368232100640500046487200000000000000000000000000000000, 65253056672116608805338634809131500000000000000000000000000),
  (999999988357934130221566857592402900000000000000000000000000000000, 17131673509119485566738467712233710000000000000000000000000),
  (999999997480770425756779030545734500000000000000000000000000000000, 4009149752315240111967273661101008000000000000000000000000),
  (999999999518840794375562249139154300000000000000000000000000000000, 828238612964024716318727176758730300000000000000000000000),
  (999999999919728770416966601785638700000000000000000000000000000000, 149474220836275811999537792374242900000000000000000000000),
  (999999999988434155013035775552864300000000000000000000000000000000, 23300897568960039563055288052873250000000000000000000000),
  (999999999998578207960710076820312300000000000000000000000000000000, 3099290527600054807457157806807920000000000000000000000),
  (999999999999852837833143098192565500000000000000000000000000000000, 347127650999062528310746069136119700000000000000000000),
  (999999999999987357097440783675632300000000000000000000000000000000, 32272849197517857101109308201400140000000000000000000),
  (999999999999999112298577266239937600000000000000000000000000000000, 2452342329095721266168635147212534000000000000000000),
  (999999999999999949906311660629186500000000000000000000000000000000, 149776335100980697206914548618951300000000000000000),
  (999999999999999997768878899231196500000000000000000000000000000000, 7220186679836341209172993072578137000000000000000),
  (999999999999999999923092734754240300000000000000000000000000000000, 269385386545213075602594693473431000000000000000),
  (999999999999999999997991397528360500000000000000000000000000000000, 7615456494100668278113154262876409000000000000),
  (999999999999999999999961156224225800000000000000000000000000000000, 159415497266730107613814554775792600000000000),
  (999999999999999999999999457443081600000000000000000000000000000000, 2410303238441132468342479865793954000000000),
  (999999999999999999999999994671926000000000000000000000000000000000, 25622561804740460076092557749376190000000),
  (999999999999999999999999999964269800000000000000000000000000000000, 186003807066787950148618085169902400000),
  (999999999999999999999999999999841500000000000000000000000000000000, 893436951263940292203582137486139900)]

/-- n = 98. quadrature_lib.cpp:9850-9947. -/
def b98 : List (Nat × Nat) := [
  (86186988795208198809271991783729130, 485902225661953787928461110460833700),
  (19501539819077415406885028381097310000, 101628245777625541233631077776159600000),
  (2928145857541282168009190858876864000000, 14105310664154931329858120438795980000000),
  (300964505929930381760894769978979900000000, 1340160367605816509750367113611891000000000),
  (21793033287410152980701819823173560000000000, 89705493649963206463686199117485230000000000),
  (1141661307600633009503803099887181000000000000, 4344184427195403067013371273409350000000000000),
  (44344456871884201210313826735212480000000000000, 155988050311524736863359715256602000000000000000),
  (1306421034255313320073703786095012000000000000000, 4248440266629478378094765399299457000000000000000),
  (29811462167532874626920884537279460000000000000000, 89627153964331865539032201026438520000000000000000),
  (537237052603070864675041212391652100000000000000000, 1493311916127217923046203506022908000000000000000000),
  (7784334892188197875232358204157471000000000000000000, 20005789741785327803302519167948940000000000000000000),
  (92204602724893936337077960786861560000000000000000000, 219109599360986804551100716393476400000000000000000000),
  (906606703835354384894678350454878700000000000000000000, 1992193805330892187526639617425393000000000000000000000),
  (7505481152698738218605827648507236000000000000000000000, 15252086127271392128557165536069730000000000000000000000),
  (53006123492275488535951177547491620000000000000000000000, 99621893001254743501802251528925800000000000000000000000),
  (323242105792082973780207984531365300000000000000000000000, 561929009772183374679449249266916200000000000000000000000),
  (1721294673039320861217484942162529000000000000000000000000, 2768140734118018446909643965566666000000000000000000000000),
  (8087489683728833933769104943196387000000000000000000000000, 12033443903640170096860097603614480000000000000000000000000),
  (33851038127563907379349340080139110000000000000000000000000, 46608595736435256999252871447976050000000000000000000000000),
  (127346515712532915514077260318995200000000000000000000000000, 162287841775385391565360244052009800000000000000000000000000),
  (434138714209540344829738042332777400000000000000000000000000, 512193302892014416854916017805207800000000000000000000000000),
  (1351451400599966698687908349571169000000000000000000000000000, 1476490392440461560320440007777800000000000000000000000000000),
  (3868671068921941218072850298630421000000000000000000000000000, 3915204356791181961614933771114278000000000000000000000000000),
  (10250503502089530473942143819573960000000000000000000000000000, 9613018508808959215482549009889053000000000000000000000000000),
  (25291453175962388878942036032488840000000000000000000000000000, 21988431987919015225457362399860590000000000000000000000000000),
  (58435492387440194772871445237114660000000000000000000000000000, 47120903979079479729327155198909380000000000000000000000000000),
  (127087474214549809068289468548853300000000000000000000000000000, 95103062045116482136991747671437300000000000000000000000000000),
  (261416032989777796991788662228741400000000000000000000000000000, 181654006260340000484101555537520500000000000000000000000000000),
  (510842630319415611349552812886483600000000000000000000000000000, 329847001818966383574565375344995000000000000000000000000000000),
  (952225184594828215537565619337724500000000000000000000000000000, 571728355887649700945023163361107100000000000000000000000000000),
  (1699491895579169377504655460290508000000000000000000000000000000, 949549545013202759482463041643421000000000000000000000000000000),
  (2914187423767281473028167152855090000000000000000000000000000000, 1516308326118404920909215774860992000000000000000000000000000000),
  (4816086805688945798398538438068795000000000000000000000000000000, 2335292943642120706552278030597340000000000000000000000000000000),
  (7692732657538166125886543789912086000000000000000000000000000000, 3478337548134011098255148628068676000000000000000000000000000000),
  (11906470507016015610153926726650680000000000000000000000000000000, 5022521057975945842604462182339750000000000000000000000000000000),
  (17897307715058803945808422986173600000000000000000000000000000000, 7045082732844124969471139721411494000000000000000000000000000000),
  (26179730644878315854602361643285790000000000000000000000000000000, 9616409098322387048897551148470296000000000000000000000000000000),
  (37331540626357258431208354429157610000000000000000000000000000000, 12791105783456110302008597049506360000000000000000000000000000000),
  (51972909889623462844300763997596210000000000000000000000000000000, 16597444430911055879061171374559960000000000000000000000000000000),
  (70734346096426735945549420613785090000000000000000000000000000000, 21025893372957943254415212544507930000000000000000000000000000000),
  (94213226631690977341096293008017480000000000000000000000000000000, 26017984868498315239250472068997370000000000000000000000000000000),
  (122920112206706719042497249446944100000000000000000000000000000000, 31457358992262773598943456643792480000000000000000000000000000000),
  (157218141922944812464003230350642900000000000000000000000000000000, 37165291514378453471719967388146290000000000000000000000000000000),
  (197261216997120600743712990561309600000000000000000000000000000000, 42903128668673012128751400204878960000000000000000000000000000000),
  (242938921678120683429486569569230300000000000000000000000000000000, 48383571969771725305478020871413020000000000000000000000000000000),
  (293837523341274154384722515284864200000000000000000000000000000000, 53291529260266203365988850768074430000000000000000000000000000000),
  (349226201624586169087265230436835000000000000000000000000000000000, 57313338653560765592493571009364580000000000000000000000000000000),
  (408075353441480207374889001068802600000000000000000000000000000000, 60170946834204724757428436638426100000000000000000000000000000000),
  (469109393341575433437916994461322700000000000000000000000000000000, 61655721353410681057124909920643850000000000000000000000000000000),
  (530890606658424566562083005538677200000000000000000000000000000000, 61655721353410681057124909920643850000000000000000000000000000000),
  (591924646558519792625110998931197400000000000000000000000000000000, 60170946834204724757428436638426100000000000000000000000000000000),
  (650773798375413830912734769563165100000000000000000000000000000000, 57313338653560765592493571009364580000000000000000000000000000000),
  (706162476658725845615277484715135700000000000000000000000000000000, 53291529260266203365988850768074460000000000000000000000000000000),
  (757061078321879316570513430430769700000000000000000000000000000000, 48383571969771725305478020871413020000000000000000000000000000000),
  (802738783002879399256287009438690400000000000000000000000000000000, 42903128668673012128751400204878960000000000000000000000000000000),
  (842781858077055187535996769649357100000000000000000000000000000000, 37165291514378453471719967388146290000000000000000000000000000000),
  (877079887793293280957502750553055800000000000000000000000000000000, 31457358992262773598943456643792490000000000000000000000000000000),
  (905786773368309022658903706991982500000000000000000000000000000000, 26017984868498315239250472068997360000000000000000000000000000000),
  (929265653903573264054450579386215000000000000000000000000000000000, 21025893372957943254415212544507930000000000000000000000000000000),
  (948027090110376537155699236002403800000000000000000000000000000000, 16597444430911055879061171374559960000000000000000000000000000000),
  (962668459373642741568791645570842500000000000000000000000000000000, 12791105783456110302008597049506360000000000000000000000000000000),
  (973820269355121684145397638356714200000000000000000000000000000000, 9616409098322387048897551148470296000000000000000000000000000000),
  (982102692284941196054191577013826300000000000000000000000000000000, 7045082732844124969471139721411494000000000000000000000000000000),
  (988093529492983984389846073273349400000000000000000000000000000000, 5022521057975945842604462182339742000000000000000000000000000000),
  (992307267342461833874113456210088000000000000000000000000000000000, 3478337548134011098255148628068676000000000000000000000000000000),
  (995183913194311054201601461561931100000000000000000000000000000000, 2335292943642120706552278030597340000000000000000000000000000000),
  (997085812576232718526971832847144900000000000000000000000000000000, 1516308326118404920909215774860992000000000000000000000000000000),
  (998300508104420830622495344539709400000000000000000000000000000000, 949549545013202759482463041643421000000000000000000000000000000),
  (999047774815405171784462434380662400000000000000000000000000000000, 571728355887649700945023163361107100000000000000000000000000000),
  (999489157369680584388650447187113600000000000000000000000000000000, 329847001818966383574565375344995000000000000000000000000000000),
  (999738583967010222203008211337771300000000000000000000000000000000, 181654006260340000484101555537520500000000000000000000000000000),
  (999872912525785450190931710531451200000000000000000000000000000000, 95103062045116482136991747671437300000000000000000000000000000),
  (999941564507612559805227128554762900000000000000000000000000000000, 47120903979079479729327155198909320000000000000000000000000000),
  (999974708546824037611121057963967600000000000000000000000000000000, 21988431987919015225457362399860560000000000000000000000000000),
  (999989749496497910469526057856180400000000000000000000000000000000, 9613018508808959215482549009889067000000000000000000000000000),
  (999996131328931078058781927149701400000000000000000000000000000000, 3915204356791181961614933771114278000000000000000000000000000),
  (999998648548599400033301312091650400000000000000000000000000000000, 1476490392440461560320440007777800000000000000000000000000000),
  (999999565861285790459655170261957600000000000000000000000000000000, 512193302892014416854916017805207800000000000000000000000000),
  (999999872653484287467084485922739700000000000000000000000000000000, 162287841775385391565360244052009800000000000000000000000000),
  (999999966148961872436092620650659800000000000000000000000000000000, 46608595736435256999252871447976050000000000000000000000000),
  (999999991912510316271166066230895000000000000000000000000000000000, 12033443903640170096860097603614480000000000000000000000000),
  (999999998278705326960679138782515100000000000000000000000000000000, 2768140734118018446909643965566666000000000000000000000000),
  (999999999676757894207917026219792100000000000000000000000000000000, 561929009772183374679449249266916200000000000000000000000),
  (999999999946993876507724511464048900000000000000000000000000000000, 99621893001254743501802251528925530000000000000000000000),
  (999999999992494518847301261781394100000000000000000000000000000000, 15252086127271392128557165536069730000000000000000000000),
  (999999999999093393296164645615105400000000000000000000000000000000, 1992193805330892187526639617425393000000000000000000000),
  (999999999999907795397275106063663000000000000000000000000000000000, 219109599360986804551100716393476400000000000000000000),
  (999999999999992215665107811802124700000000000000000000000000000000, 20005789741785327803302519167948940000000000000000000),
  (999999999999999462762947396929135300000000000000000000000000000000, 1493311916127217923046203506022908000000000000000000),
  (999999999999999970188537832467125300000000000000000000000000000000, 89627153964331865539032201026438520000000000000000),
  (999999999999999998693578965744686600000000000000000000000000000000, 4248440266629478378094765399299430000000000000000),
  (999999999999999999955655543128115900000000000000000000000000000000, 155988050311524736863359715256602000000000000000),
  (999999999999999999998858338692399300000000000000000000000000000000, 4344184427195403067013371273409350000000000000),
  (999999999999999999999978206966712600000000000000000000000000000000, 89705493649963206463686199117485230000000000),
  (999999999999999999999999699035494000000000000000000000000000000000, 1340160367605816509750367113611891000000000),
  (999999999999999999999999997071854100000000000000000000000000000000, 14105310664154931329858120438795980000000),
  (999999999999999999999999999980498400000000000000000000000000000000, 101628245777625541233631077776159600000),
  (999999999999999999999999999999913700000000000000000000000000000000, 485902225661953787928461110460833600)]

/-- n = 99. quadrature_lib.cpp:9948-10046. -/
def b99 : List (Nat × Nat) := [
  (46901529677324633403254861088488540, 264528746710610394630256340069990000),
  (10654037350206060067437595035349550000, 55579095131459405435315000964608360000),
  (1610566911463760511629566430775132000000, 7771293197903696852884759748407529000000),
  (167064905499624539822698523766632900000000, 745630876852497518183720601183983800000000),
  (12233189252785871691039926129121840000000000, 50502224549711710835133313386203430000000000),
  (649119951838341801395611039385511800000000000, 2478776175402827222687923536177730000000000000),
  (25572311057802704574055377454827240000000000000, 90330588454636040789052702076952150000000000000),
  (764916722987120741663650659264188100000000000000, 2499449328355715706551369861204143000000000000000),
  (17736453574087180626797553597877130000000000000000, 53613882966788627889692742944316880000000000000000),
  (324984060309679588670768305033410700000000000000000, 908804207251591704702029226715055900000000000000000),
  (4789717917201168064786876664659165000000000000000000, 12391858457200311644669396419005560000000000000000000),
  (57722244631146545168076243534968600000000000000000000, 138169391093392697975213736690202100000000000000000000),
  (577512054898912207959343305178095900000000000000000000, 1279085915486605317571777295980400000000000000000000000),
  (4864848271663576240556502488300782000000000000000000000, 9970354180188188627827603549186329000000000000000000000),
  (34955676919657877272568995368446150000000000000000000000, 66297887709719555766023603989561580000000000000000000000),
  (216837552941752445138279870925170600000000000000000000000, 380628766791156676024678159514488100000000000000000000000),
  (1174243525136432896058795422146176000000000000000000000000, 1907929431100610273387675899837502000000000000000000000000),
  (5608763835770814194939468869507095000000000000000000000000, 8436627392038483519060259568171507000000000000000000000000),
  (23856517973095384414199085899435870000000000000000000000000, 33225919484406969547506730710899320000000000000000000000000),
  (91162454386199008265579595053381190000000000000000000000000, 117580851490118321595911249326209900000000000000000000000000),
  (315535381792159859766787893012257000000000000000000000000000, 376977413408736816218694393192930600000000000000000000000000),
  (996769721122942211378431536620258000000000000000000000000000, 1103368502530653754304754542621951000000000000000000000000000),
  (2894046353051768654937334646884634000000000000000000000000000, 2969064614731164389973277883858205000000000000000000000000000),
  (7773293758240787348393725410070065000000000000000000000000000, 7393639293800718726498516391441551000000000000000000000000000),
  (19431728478104214395349512122092000000000000000000000000000000, 17142627015669166647952162869047880000000000000000000000000000),
  (45462184070327013687970165377769320000000000000000000000000000, 37215867615668631208465503187423910000000000000000000000000000),
  (100061954116266023670136039304260200000000000000000000000000000, 76047483216281866842897219500895100000000000000000000000000000),
  (208184458792017175184168718594988900000000000000000000000000000, 146979108727805640351564000718304100000000000000000000000000000),
  (411256600273305770345366504565086600000000000000000000000000000, 269892550802584236235590191180050300000000000000000000000000000),
  (774532675013300759837142198141006300000000000000000000000000000, 472813231598845177179948804335914200000000000000000000000000000),
  (1395935942166922223269708399798625000000000000000000000000000000, 793237282585614566409156206977126300000000000000000000000000000),
  (2415973028947464198805587951171073000000000000000000000000000000, 1278902063583557203582459494938440000000000000000000000000000000),
  (4028020187050830337782163048179737000000000000000000000000000000, 1987711633349277401246021081185699000000000000000000000000000000),
  (6487995402186864408003031316373185000000000000000000000000000000, 2986537760674698866020537851573290000000000000000000000000000000),
  (10122159813266043392056290831029030000000000000000000000000000000, 4348636225133552646116959102651493000000000000000000000000000000),
  (15331545655940935576451890142143080000000000000000000000000000000, 6149448963548585910114742605385678000000000000000000000000000000),
  (22591304328386308731521630323828500000000000000000000000000000000, 8460621019090020859847998300662825000000000000000000000000000000),
  (32443148908053943879495676062328920000000000000000000000000000000, 11342177520608096807910100588011440000000000000000000000000000000),
  (45479107024642532148954572069241220000000000000000000000000000000, 14833017533937434294886126470373200000000000000000000000000000000),
  (62315114286590936135596278828233380000000000000000000000000000000, 18940218883953356087317387292514250000000000000000000000000000000),
  (83553695652439561822327749472720130000000000000000000000000000000, 23628113441014411850955171493765440000000000000000000000000000000),
  (109736211151755202661140273889623100000000000000000000000000000000, 28808637011684248091182729392690780000000000000000000000000000000),
  (141286909183308272091372537987780700000000000000000000000000000000, 34334962783286762130644653208770120000000000000000000000000000000),
  (178453205517897213052230607938587900000000000000000000000000000000, 40000702100073015175420628638496660000000000000000000000000000000),
  (221248845699699875715514771769508000000000000000000000000000000000, 45546773043908029232128254057087650000000000000000000000000000000),
  (269408352372399195844204759390544000000000000000000000000000000000, 50677206302888043902234176880805570000000000000000000000000000000),
  (322361721656218838103957235342369600000000000000000000000000000000, 55083637836885947247442660262632580000000000000000000000000000000),
  (379237105653321824711984166490746400000000000000000000000000000000, 58476237271458740707429189748109950000000000000000000000000000000),
  (438895942595161207584857307670585900000000000000000000000000000000, 60616825296307939903881942727971070000000000000000000000000000000),
  (500000000000000000000000000000000000000000000000000000000000000000, 61348600995143845204377939620214190000000000000000000000000000000),
  (561104057404838792415142692329414000000000000000000000000000000000, 60616825296307939903881942727971070000000000000000000000000000000),
  (620762894346678175288015833509253500000000000000000000000000000000, 58476237271458740707429189748109950000000000000000000000000000000),
  (677638278343781161896042764657630400000000000000000000000000000000, 55083637836885947247442660262632580000000000000000000000000000000),
  (730591647627600804155795240609455900000000000000000000000000000000, 50677206302888043902234176880805570000000000000000000000000000000),
  (778751154300300124284485228230492100000000000000000000000000000000, 45546773043908029232128254057087650000000000000000000000000000000),
  (821546794482102786947769392061412100000000000000000000000000000000, 40000702100073015175420628638496660000000000000000000000000000000),
  (858713090816691727908627462012219400000000000000000000000000000000, 34334962783286762130644653208770120000000000000000000000000000000),
  (890263788848244797338859726110376900000000000000000000000000000000, 28808637011684248091182729392690780000000000000000000000000000000),
  (916446304347560438177672250527280000000000000000000000000000000000, 23628113441014411850955171493765440000000000000000000000000000000),
  (937684885713409063864403721171766700000000000000000000000000000000, 18940218883953356087317387292514250000000000000000000000000000000),
  (954520892975357467851045427930758800000000000000000000000000000000, 14833017533937434294886126470373200000000000000000000000000000000),
  (967556851091946056120504323937671100000000000000000000000000000000, 11342177520608096807910100588011440000000000000000000000000000000),
  (977408695671613691268478369676171400000000000000000000000000000000, 8460621019090020859847998300662825000000000000000000000000000000),
  (984668454344059064423548109857857000000000000000000000000000000000, 6149448963548585910114742605385678000000000000000000000000000000),
  (989877840186733956607943709168971000000000000000000000000000000000, 4348636225133552646116959102651491000000000000000000000000000000),
  (993512004597813135591996968683626800000000000000000000000000000000, 2986537760674698866020537851573288000000000000000000000000000000),
  (995971979812949169662217836951820200000000000000000000000000000000, 1987711633349277401246021081185698000000000000000000000000000000),
  (997584026971052535801194412048828900000000000000000000000000000000, 1278902063583557203582459494938440000000000000000000000000000000),
  (998604064057833077776730291600201400000000000000000000000000000000, 793237282585614566409156206977126300000000000000000000000000000),
  (999225467324986699240162857801859000000000000000000000000000000000, 472813231598845177179948804335914200000000000000000000000000000),
  (999588743399726694229654633495434900000000000000000000000000000000, 269892550802584236235590191180050300000000000000000000000000000),
  (999791815541207982824815831281405100000000000000000000000000000000, 146979108727805640351564000718304100000000000000000000000000000),
  (999899938045883733976329863960695700000000000000000000000000000000, 76047483216281866842897219500895100000000000000000000000000000),
  (999954537815929672986312029834622100000000000000000000000000000000, 37215867615668631208465503187423870000000000000000000000000000),
  (999980568271521895785604650487877900000000000000000000000000000000, 17142627015669166647952162869047880000000000000000000000000000),
  (999992226706241759212651606274589900000000000000000000000000000000, 7393639293800718726498516391441551000000000000000000000000000),
  (999997105953646948231345062665353200000000000000000000000000000000, 2969064614731164389973277883858205000000000000000000000000000),
  (999999003230278877057788621568463500000000000000000000000000000000, 1103368502530653754304754542621951000000000000000000000000000),
  (999999684464618207840140233212107000000000000000000000000000000000, 376977413408736816218694393192930600000000000000000000000000),
  (999999908837545613800991734420405000000000000000000000000000000000, 117580851490118321595911249326209900000000000000000000000000),
  (999999976143482026904615585800914200000000000000000000000000000000, 33225919484406969547506730710899320000000000000000000000000),
  (999999994391236164229185805060531100000000000000000000000000000000, 8436627392038483519060259568171510000000000000000000000000),
  (999999998825756474863567103941204600000000000000000000000000000000, 1907929431100610273387675899837507000000000000000000000000),
  (999999999783162447058247554861720000000000000000000000000000000000, 380628766791156676024678159514488100000000000000000000000),
  (999999999965044323080342122727431000000000000000000000000000000000, 66297887709719555766023603989561580000000000000000000000),
  (999999999995135151728336423759443400000000000000000000000000000000, 9970354180188188627827603549186329000000000000000000000),
  (999999999999422487945101087792040700000000000000000000000000000000, 1279085915486605317571777295980400000000000000000000000),
  (999999999999942277755368853454831900000000000000000000000000000000, 138169391093392697975213736690202100000000000000000000),
  (999999999999995210282082798831935300000000000000000000000000000000, 12391858457200311644669396419005560000000000000000000),
  (999999999999999675015939690320411300000000000000000000000000000000, 908804207251591704702029226715055900000000000000000),
  (999999999999999982263546425912819400000000000000000000000000000000, 53613882966788627889692742944317200000000000000000),
  (999999999999999999235083277012879300000000000000000000000000000000, 2499449328355715706551369861204143000000000000000),
  (999999999999999999974427688942197400000000000000000000000000000000, 90330588454636040789052702076952140000000000000),
  (999999999999999999999350880048161600000000000000000000000000000000, 2478776175402827222687923536177716000000000000),
  (999999999999999999999987766810747200000000000000000000000000000000, 50502224549711710835133313386203430000000000),
  (999999999999999999999999832935094500000000000000000000000000000000, 745630876852497518183720601183983800000000),
  (999999999999999999999999998389433000000000000000000000000000000000, 7771293197903696852884759748407529000000),
  (999999999999999999999999999989345900000000000000000000000000000000, 55579095131459405435315000964608360000),
  (999999999999999999999999999999953000000000000000000000000000000000, 264528746710610394630256340069990000)]

/-- n = 100. quadrature_lib.cpp:10047-10146. -/
def b100 : List (Nat × Nat) := [
  (25548704547957253898489342008093160, 144155171161481334345537635438950300),
  (5825956205167061508331976801382802000, 30423434078114214616342348828823120000),
  (886593893948444701474570798826701700000, 4285002797113453295525924786358649000000),
  (92801070196248307790501384116939110000000, 415117788433092791199150350422926500000000),
  (6870479215136836824679604644017268000000000, 28444946082301666419660681866834750000000000),
  (369197181634630422728212224073011900000000000, 1414767981254460215468541577934846000000000000),
  (14748995552921437052277755623079140000000000000, 52312876042338071614327629099134040000000000000),
  (447838083030909256808146655212852200000000000000, 1470275743585095638117308076411576000000000000000),
  (10549699178385826905930889844289750000000000000000, 32060023212246325574294843841107150000000000000000),
  (196500317831264315625056009313399300000000000000000, 552776751354435142014329816919553500000000000000000),
  (2945245005143278522645524612025199000000000000000000, 7669909963880101314024096708644041000000000000000000),
  (36105927798809798933404294138117330000000000000000000, 87046739608834981019351965015923210000000000000000000),
  (367514026392366089264824030140400400000000000000000000, 820313247573383315042775434918497600000000000000000000),
  (3149646843271385446810898269185667000000000000000000000, 6509244109007459789014037530200078000000000000000000000),
  (23022246495686555646564796763377750000000000000000000000, 44057063594906650018778731943138500000000000000000000000),
  (145251837578246199837672945261014800000000000000000000000, 257413264603499998522220530700772000000000000000000000000),
  (799815632024197091588328920834694700000000000000000000000, 1312773867964669209100971336392705000000000000000000000000),
  (3883323502101995951589192459973836000000000000000000000000, 5904074608851398063503362445804205000000000000000000000000),
  (16783612087474875185359218522601160000000000000000000000000, 23640078850697758986053494208275870000000000000000000000000),
  (65141029981369250017698267670859880000000000000000000000000, 85018095343115074075319963873716770000000000000000000000000),
  (228902011784525396434980152588750400000000000000000000000000, 276879296589268498672939056659889300000000000000000000000000),
  (733752208363904223249042100536777900000000000000000000000000, 822773143375560258002117637968488600000000000000000000000000),
  (2160693853083673768520996646320116000000000000000000000000000, 2246655529333834200558134505221091000000000000000000000000000),
  (5882994787197707585570834595194118000000000000000000000000000, 5674093777873803339180248593477926000000000000000000000000000),
  (14899692604848589760758065557971960000000000000000000000000000, 13335039314253881549295834627978410000000000000000000000000000),
  (35298141598280473120510867395214090000000000000000000000000000, 29327573717758806933298129356491790000000000000000000000000000),
  (78626244174945690444304180398375950000000000000000000000000000, 60675511218547990848963401889867340000000000000000000000000000),
  (165464646841938731115692858047740400000000000000000000000000000, 118662582568378755735980116363349900000000000000000000000000000),
  (330439137347353024005673961057273700000000000000000000000000000, 220358448495075348197947552413090200000000000000000000000000000),
  (628792624835230381020641469479736400000000000000000000000000000, 390180200756194079077142390881753700000000000000000000000000000),
  (1144447981261778620114893781051050000000000000000000000000000000, 661272440039493180949702827848671400000000000000000000000000000),
  (1999254665162860432928833159101289000000000000000000000000000000, 1076450231012502426615937039363027000000000000000000000000000000),
  (3362847129541181748343722134702794000000000000000000000000000000, 1688434536566368897162957540807871000000000000000000000000000000),
  (5462273392909960915389203061493630000000000000000000000000000000, 2559113712537952796398535786670000000000000000000000000000000000),
  (8590292550487781894235429455905947000000000000000000000000000000, 3757579649643805796921160451865208000000000000000000000000000000),
  (13110999589184122155358689534362330000000000000000000000000000000, 5356711000323583400792881796392427000000000000000000000000000000),
  (19461227157283669237209898332294840000000000000000000000000000000, 7428118259055205309017961393380955000000000000000000000000000000),
  (28146026040833270037638042545660670000000000000000000000000000000, 10035349699968315590941323034003140000000000000000000000000000000),
  (39726497026009514928265868721271930000000000000000000000000000000, 13225416469354247259350565656833420000000000000000000000000000000),
  (54798428468009868907790420565368370000000000000000000000000000000, 17018961777916204041595157519460330000000000000000000000000000000),
  (73960703262456836030094901175156380000000000000000000000000000000, 21399787885729451333508261517961760000000000000000000000000000000),
  (97773390407390450447606456780196070000000000000000000000000000000, 26304941783602162892907978339291600000000000000000000000000000000),
  (126706892958652346090251703919868500000000000000000000000000000000, 31617064240358359126352661502660490000000000000000000000000000000),
  (161085433297577444364736672412486100000000000000000000000000000000, 37161077946737933533366492149453970000000000000000000000000000000),
  (201030287771699131174348574540998500000000000000000000000000000000, 42707327799875257996958237060913080000000000000000000000000000000),
  (246410098715077717089597688004034400000000000000000000000000000000, 47982789616554784160509499181905940000000000000000000000000000000),
  (296806691500629088131547425078243800000000000000000000000000000000, 52690822381302811208637884730437350000000000000000000000000000000),
  (351504484099513957743951645154312500000000000000000000000000000000, 56538234594698038671144778700063990000000000000000000000000000000),
  (409509379188806372674951091502675800000000000000000000000000000000, 59266502326865324039014061887390610000000000000000000000000000000),
  (469599008794918217802199243165230100000000000000000000000000000000, 60682367706122957814947561643192240000000000000000000000000000000),
  (530400991205081782197800756834769900000000000000000000000000000000, 60682367706122957814947561643192240000000000000000000000000000000),
  (590490620811193627325048908497324200000000000000000000000000000000, 59266502326865324039014061887390610000000000000000000000000000000),
  (648495515900486042256048354845687600000000000000000000000000000000, 56538234594698038671144778700063990000000000000000000000000000000),
  (703193308499370911868452574921756200000000000000000000000000000000, 52690822381302811208637884730437350000000000000000000000000000000),
  (753589901284922282910402311995965600000000000000000000000000000000, 47982789616554784160509499181905940000000000000000000000000000000),
  (798969712228300868825651425459001600000000000000000000000000000000, 42707327799875257996958237060913090000000000000000000000000000000),
  (838914566702422555635263327587513900000000000000000000000000000000, 37161077946737933533366492149453970000000000000000000000000000000),
  (873293107041347653909748296080131400000000000000000000000000000000, 31617064240358359126352661502660510000000000000000000000000000000),
  (902226609592609549552393543219803900000000000000000000000000000000, 26304941783602162892907978339291600000000000000000000000000000000),
  (926039296737543163969905098824843700000000000000000000000000000000, 21399787885729451333508261517961760000000000000000000000000000000),
  (945201571531990131092209579434631600000000000000000000000000000000, 17018961777916204041595157519460330000000000000000000000000000000),
  (960273502973990485071734131278728100000000000000000000000000000000, 13225416469354247259350565656833420000000000000000000000000000000),
  (971853973959166729962361957454339200000000000000000000000000000000, 10035349699968315590941323034003140000000000000000000000000000000),
  (980538772842716330762790101667705200000000000000000000000000000000, 7428118259055205309017961393380955000000000000000000000000000000),
  (986889000410815877844641310465637600000000000000000000000000000000, 5356711000323583400792881796392427000000000000000000000000000000),
  (991409707449512218105764570544093900000000000000000000000000000000, 3757579649643805796921160451865208000000000000000000000000000000),
  (994537726607090039084610796938506400000000000000000000000000000000, 2559113712537952796398535786670000000000000000000000000000000000),
  (996637152870458818251656277865297200000000000000000000000000000000, 1688434536566368897162957540807871000000000000000000000000000000),
  (998000745334837139567071166840898800000000000000000000000000000000, 1076450231012502426615937039363027000000000000000000000000000000),
  (998855552018738221379885106218948900000000000000000000000000000000, 661272440039493180949702827848671400000000000000000000000000000),
  (999371207375164769618979358530520300000000000000000000000000000000, 390180200756194079077142390881753700000000000000000000000000000),
  (999669560862652646975994326038942700000000000000000000000000000000, 220358448495075348197947552413090100000000000000000000000000000),
  (999834535353158061268884307141952400000000000000000000000000000000, 118662582568378755735980116363349900000000000000000000000000000),
  (999921373755825054309555695819601500000000000000000000000000000000, 60675511218547990848963401889867410000000000000000000000000000),
  (999964701858401719526879489132604900000000000000000000000000000000, 29327573717758806933298129356491790000000000000000000000000000),
  (999985100307395151410239241934441900000000000000000000000000000000, 13335039314253881549295834627978390000000000000000000000000000),
  (999994117005212802292414429165404800000000000000000000000000000000, 5674093777873803339180248593477936000000000000000000000000000),
  (999997839306146916326231479003353700000000000000000000000000000000, 2246655529333834200558134505221091000000000000000000000000000),
  (999999266247791636095776750957899400000000000000000000000000000000, 822773143375560258002117637968488600000000000000000000000000),
  (999999771097988215474603565019847400000000000000000000000000000000, 276879296589268498672939056659889300000000000000000000000000),
  (999999934858970018630749982301732200000000000000000000000000000000, 85018095343115074075319963873716750000000000000000000000000),
  (999999983216387912525124814640781500000000000000000000000000000000, 23640078850697758986053494208275870000000000000000000000000),
  (999999996116676497898004048410807500000000000000000000000000000000, 5904074608851398063503362445804205000000000000000000000000),
  (999999999200184367975802908411671000000000000000000000000000000000, 1312773867964669209100971336392705000000000000000000000000),
  (999999999854748162421753800162327200000000000000000000000000000000, 257413264603499998522220530700772000000000000000000000000),
  (999999999976977753504313444353435200000000000000000000000000000000, 44057063594906650018778731943138510000000000000000000000),
  (999999999996850353156728614553189100000000000000000000000000000000, 6509244109007459789014037530200078000000000000000000000),
  (999999999999632485973607633910735100000000000000000000000000000000, 820313247573383315042775434918497600000000000000000000),
  (999999999999963894072201190201066500000000000000000000000000000000, 87046739608834981019351965015923210000000000000000000),
  (999999999999997054754994856721477400000000000000000000000000000000, 7669909963880101314024096708644041000000000000000000),
  (999999999999999803499682168735684300000000000000000000000000000000, 552776751354435142014329816919553500000000000000000),
  (999999999999999989450300821614173000000000000000000000000000000000, 32060023212246325574294843841107150000000000000000),
  (999999999999999999552161916969090800000000000000000000000000000000, 1470275743585095638117308076411576000000000000000),
  (999999999999999999985251004447078600000000000000000000000000000000, 52312876042338071614327629099133740000000000000),
  (999999999999999999999630802818365400000000000000000000000000000000, 1414767981254460215468541577934846000000000000),
  (999999999999999999999993129520784900000000000000000000000000000000, 28444946082301666419660681866834750000000000),
  (999999999999999999999999907198929900000000000000000000000000000000, 415117788433092791199150350422926500000000),
  (999999999999999999999999999113406000000000000000000000000000000000, 4285002797113453295525924786358648000000),
  (999999999999999999999999999994174100000000000000000000000000000000, 30423434078114214616342348828823120000),
  (999999999999999999999999999999974400000000000000000000000000000000, 144155171161481334345537635438950300)]

/-- Blocks 87..100. -/
def blocks3 : List (List (Nat × Nat)) := [b87, b88, b89, b90, b91, b92, b93, b94, b95, b96, b97, b98, b99, b100]

end Qugar.TanhSinhTable
