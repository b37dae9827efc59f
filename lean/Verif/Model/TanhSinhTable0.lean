/-
GENERATED (see DESIGN.md) from cpp/qugar/quadrature_lib.cpp: rows of `TanhSinh::get_quad_data` for n = 1..50 points.
Every decimal literal of the source is written as an integer multiple of 10^(-66) (exactly, no rounding); the
rounding of the literals to `double` is not modelled.
-/
namespace Qugar.TanhSinhTable

/-- n = 1. quadrature_lib.cpp:5097-5097. -/
def b1 : List (Nat × Nat) := [
  (500000000000000000000000000000000000000000000000000000000000000000, 1000000000000000000000000000000000000000000000000000000000000000000)]

/-- n = 2. quadrature_lib.cpp:5098-5099. -/
def b2 : List (Nat × Nat) := [
  (208505643394063549257148849617015800000000000000000000000000000000, 500000000000000000000000000000000000000000000000000000000000000000),
  (791494356605936450742851150382984200000000000000000000000000000000, 500000000000000000000000000000000000000000000000000000000000000000)]

/-- n = 3. quadrature_lib.cpp:5100-5102. -/
def b3 : List (Nat × Nat) := [
  (62581669016627102993108009764916060000000000000000000000000000000, 191259479184361556766813282378001500000000000000000000000000000000),
  (500000000000000000000000000000000000000000000000000000000000000000, 617481041631276886466373435243996800000000000000000000000000000000),
  (937418330983372897006891990235084000000000000000000000000000000000, 191259479184361556766813282378001500000000000000000000000000000000)]

/-- n = 4. quadrature_lib.cpp:5103-5106. -/
def b4 : List (Nat × Nat) := [
  (19257748278883326546667167078265830000000000000000000000000000000, 66583405898775363798263852360826050000000000000000000000000000000),
  (245970284554264110870909628399810600000000000000000000000000000000, 433416594101224636201736147639174000000000000000000000000000000000),
  (754029715445735889129090371600189500000000000000000000000000000000, 433416594101224636201736147639174000000000000000000000000000000000),
  (980742251721116673453332832921734100000000000000000000000000000000, 66583405898775363798263852360826050000000000000000000000000000000)]

/-- n = 5. quadrature_lib.cpp:5107-5111. -/
def b5 : List (Nat × Nat) := [
  (6269877389525099081182415093070657000000000000000000000000000000, 23325571676411824537698369267471480000000000000000000000000000000),
  (108672555559124362207541756734432100000000000000000000000000000000, 230035912230534002091690240904887000000000000000000000000000000000),
  (500000000000000000000000000000000000000000000000000000000000000000, 493277032186108346741222779655283000000000000000000000000000000000),
  (891327444440875637792458243265568000000000000000000000000000000000, 230035912230534002091690240904887000000000000000000000000000000000),
  (993730122610474900918817584906929400000000000000000000000000000000, 23325571676411824537698369267471480000000000000000000000000000000)]

/-- n = 6. quadrature_lib.cpp:5112-5117. -/
def b6 : List (Nat × Nat) := [
  (2146172360922721919103205162173282000000000000000000000000000000, 8413095156186969623016811236357151000000000000000000000000000000),
  (46478898620517562584580309879152020000000000000000000000000000000, 109997463251646575973920074797593000000000000000000000000000000000),
  (287728737350533046055338399078235600000000000000000000000000000000, 381589441592166454403063113966049800000000000000000000000000000000),
  (712271262649466953944661600921764400000000000000000000000000000000, 381589441592166454403063113966049800000000000000000000000000000000),
  (953521101379482437415419690120848000000000000000000000000000000000, 109997463251646575973920074797593000000000000000000000000000000000),
  (997853827639077278080896794837826600000000000000000000000000000000, 8413095156186969623016811236357151000000000000000000000000000000)]

/-- n = 7. quadrature_lib.cpp:5118-5124. -/
def b7 : List (Nat × Nat) := [
  (765205858072048159442762818136331400000000000000000000000000000, 3121816813900181587184026520421504000000000000000000000000000000),
  (19810697345427333192627981808666760000000000000000000000000000000, 50704528952281687490390726052288470000000000000000000000000000000),
  (152806417469456292767452779048097100000000000000000000000000000000, 241466189413169115052480137001524700000000000000000000000000000000),
  (500000000000000000000000000000000000000000000000000000000000000000, 409414929641298031739890220851530500000000000000000000000000000000),
  (847193582530543707232547220951903000000000000000000000000000000000, 241466189413169115052480137001524700000000000000000000000000000000),
  (980189302654572666807372018191333200000000000000000000000000000000, 50704528952281687490390726052288470000000000000000000000000000000),
  (999234794141927951840557237181863800000000000000000000000000000000, 3121816813900181587184026520421504000000000000000000000000000000)]

/-- n = 8. quadrature_lib.cpp:5125-5132. -/
def b8 : List (Nat × Nat) := [
  (282059705889178766785723199416758400000000000000000000000000000, 1188206903104104918599436018431624000000000000000000000000000000),
  (8495808353813229856419734493305924000000000000000000000000000000, 23118684427331196619560259271674580000000000000000000000000000000),
  (77996418138715273769461858781062780000000000000000000000000000000, 138299832170285364082993446057679200000000000000000000000000000000),
  (317944946113330739924743318414708300000000000000000000000000000000, 337393276499279334378846858652214700000000000000000000000000000000),
  (682055053886669260075256681585291700000000000000000000000000000000, 337393276499279334378846858652214700000000000000000000000000000000),
  (922003581861284726230538141218937200000000000000000000000000000000, 138299832170285364082993446057679200000000000000000000000000000000),
  (991504191646186770143580265506694000000000000000000000000000000000, 23118684427331196619560259271674580000000000000000000000000000000),
  (999717940294110821233214276800583200000000000000000000000000000000, 1188206903104104918599436018431623000000000000000000000000000000)]

/-- n = 9. quadrature_lib.cpp:5133-5141. -/
def b9 : List (Nat × Nat) := [
  (106886519748787226949167354223908100000000000000000000000000000, 462342086584042944153914665410493400000000000000000000000000000),
  (3674988010503942423141598735275728000000000000000000000000000000, 10523203827334748754277181074767620000000000000000000000000000000),
  (39094657301891376619003079184286620000000000000000000000000000000, 75399418065329652622597124978043500000000000000000000000000000000),
  (189532632541382075639962514063969300000000000000000000000000000000, 237904632077617061520120764678745300000000000000000000000000000000),
  (500000000000000000000000000000000000000000000000000000000000000000, 351420807886268988317702029206066300000000000000000000000000000000),
  (810467367458617924360037485936030700000000000000000000000000000000, 237904632077617061520120764678745300000000000000000000000000000000),
  (960905342698108623380996920815713400000000000000000000000000000000, 75399418065329652622597124978043500000000000000000000000000000000),
  (996325011989496057576858401264724200000000000000000000000000000000, 10523203827334748754277181074767600000000000000000000000000000000),
  (999893113480251212773050832645776000000000000000000000000000000000, 462342086584042944153914665410493400000000000000000000000000000)]

/-- n = 10. quadrature_lib.cpp:5142-5151. -/
def b10 : List (Nat × Nat) := [
  (41467673832156245128808839618878250000000000000000000000000000, 183413387731765889473390125120366100000000000000000000000000000),
  (1603701527602651511577638631311531000000000000000000000000000000, 4798068726303864094610544302464602000000000000000000000000000000),
  (19441771647157396967871672402113150000000000000000000000000000000, 40086761557858238975455111122470620000000000000000000000000000000),
  (108665612697654041988794896480640000000000000000000000000000000000, 153288368514906153648627924621407600000000000000000000000000000000),
  (340235581847780382726565665682539400000000000000000000000000000000, 301643387813199977391833029828536900000000000000000000000000000000),
  (659764418152219617273434334317460600000000000000000000000000000000, 301643387813199977391833029828536900000000000000000000000000000000),
  (891334387302345958011205103519360000000000000000000000000000000000, 153288368514906153648627924621407600000000000000000000000000000000),
  (980558228352842603032128327597886800000000000000000000000000000000, 40086761557858238975455111122470620000000000000000000000000000000),
  (998396298472397348488422361368688400000000000000000000000000000000, 4798068726303864094610544302464603000000000000000000000000000000),
  (999958532326167843754871191160381100000000000000000000000000000000, 183413387731765889473390125120366100000000000000000000000000000)]

/-- n = 11. quadrature_lib.cpp:5152-5162. -/
def b11 : List (Nat × Nat) := [
  (16417926558196876015573180650390250000000000000000000000000000, 74015545350208393895015246465589360000000000000000000000000000),
  (705649764364279272109927248866298600000000000000000000000000000, 2194022676844659255821806235700416000000000000000000000000000000),
  (9637300905187998264663504667470840000000000000000000000000000000, 21022815572489197082891031352462370000000000000000000000000000000),
  (60890717153634624151800979198447660000000000000000000000000000000, 93743447937218761392219520224788870000000000000000000000000000000),
  (219524854979634974924539426192223900000000000000000000000000000000, 228430393953858001320370445220317000000000000000000000000000000000),
  (500000000000000000000000000000000000000000000000000000000000000000, 309070608628478345109604363440531300000000000000000000000000000000),
  (780475145020365025075460573807776100000000000000000000000000000000, 228430393953858001320370445220317000000000000000000000000000000000),
  (939109282846365375848199020801552400000000000000000000000000000000, 93743447937218761392219520224788900000000000000000000000000000000),
  (990362699094812001735336495332529100000000000000000000000000000000, 21022815572489197082891031352462370000000000000000000000000000000),
  (999294350235635720727890072751133700000000000000000000000000000000, 2194022676844659255821806235700416000000000000000000000000000000),
  (999983582073441803123984426819349600000000000000000000000000000000, 74015545350208393895015246465589360000000000000000000000000000)]

/-- n = 12. quadrature_lib.cpp:5163-5174. -/
def b12 : List (Nat × Nat) := [
  (6617116954203174358502993442332269000000000000000000000000000, 30328471547120725631313810656389560000000000000000000000000000),
  (312887123821708706717793183848590400000000000000000000000000000, 1006613998103699917008719212319919000000000000000000000000000000),
  (4771634580272694224857416662190407000000000000000000000000000000, 10934918910610152889776478861400710000000000000000000000000000000),
  (33655823237442316699803684632533550000000000000000000000000000000, 55575637398421892350461683062573600000000000000000000000000000000),
  (136642883986309787070611344718824500000000000000000000000000000000, 159700341659224179369681987630817600000000000000000000000000000000),
  (357290990041597876314547485314974600000000000000000000000000000000, 272752159562092954747439817422231800000000000000000000000000000000),
  (642709009958402123685452514685025300000000000000000000000000000000, 272752159562092954747439817422231800000000000000000000000000000000),
  (863357116013690212929388655281175500000000000000000000000000000000, 159700341659224179369681987630817600000000000000000000000000000000),
  (966344176762557683300196315367466500000000000000000000000000000000, 55575637398421892350461683062573600000000000000000000000000000000),
  (995228365419727305775142583337809500000000000000000000000000000000, 10934918910610152889776478861400710000000000000000000000000000000),
  (999687112876178291293282206816151400000000000000000000000000000000, 1006613998103699917008719212319919000000000000000000000000000000),
  (999993382883045796825641497006557600000000000000000000000000000000, 30328471547120725631313810656389520000000000000000000000000000)]

/-- n = 13. quadrature_lib.cpp:5175-5187. -/
def b13 : List (Nat × Nat) := [
  (2709556584103126010517067415468337000000000000000000000000000, 12599813613046478663757737992789920000000000000000000000000000),
  (139726122957671493957916363782205600000000000000000000000000000, 463453695837831657123525074662166300000000000000000000000000000),
  (2361895574920465591205737575365567000000000000000000000000000000, 5656605570076579537501870893508774000000000000000000000000000000),
  (18442098193820315994945396672726700000000000000000000000000000000, 32312028674974792622306942496697850000000000000000000000000000000),
  (83050359936157057921479542418351390000000000000000000000000000000, 106102215163616273394016682395446000000000000000000000000000000000),
  (244172415989755945579203020769549300000000000000000000000000000000, 217091275395341124721886941907750400000000000000000000000000000000),
  (500000000000000000000000000000000000000000000000000000000000000000, 276723643373080703177000558987884200000000000000000000000000000000),
  (755827584010244054420796979230450700000000000000000000000000000000, 217091275395341124721886941907750300000000000000000000000000000000),
  (916949640063842942078520457581648600000000000000000000000000000000, 106102215163616273394016682395446000000000000000000000000000000000),
  (981557901806179684005054603327273300000000000000000000000000000000, 32312028674974792622306942496697850000000000000000000000000000000),
  (997638104425079534408794262424634400000000000000000000000000000000, 5656605570076579537501870893508774000000000000000000000000000000),
  (999860273877042328506042083636217800000000000000000000000000000000, 463453695837831657123525074662166300000000000000000000000000000),
  (999997290443415896873989482932584500000000000000000000000000000000, 12599813613046478663757737992789920000000000000000000000000000)]

/-- n = 14. quadrature_lib.cpp:5188-5201. -/
def b14 : List (Nat × Nat) := [
  (1125389948796978043994510654699111000000000000000000000000000, 5300552076806876435685604560939218000000000000000000000000000),
  (62813749236055127096858217201890760000000000000000000000000000, 214143628385901787610346293575999600000000000000000000000000000),
  (1169270259640910115467530403734884000000000000000000000000000000, 2914383868881999349615447667892038000000000000000000000000000000),
  (10045700387516405182204918284324900000000000000000000000000000000, 18540478478433026282943116859833410000000000000000000000000000000),
  (49674098308695885337157235874545660000000000000000000000000000000, 68198162772410476765757958879091690000000000000000000000000000000),
  (161546472416258724111752369525723700000000000000000000000000000000, 161023817892633461857359317349069200000000000000000000000000000000),
  (370766243642282887560291674042153600000000000000000000000000000000, 249103712807178327080278127345976700000000000000000000000000000000),
  (629233756357717112439708325957846400000000000000000000000000000000, 249103712807178327080278127345976700000000000000000000000000000000),
  (838453527583741275888247630474276400000000000000000000000000000000, 161023817892633461857359317349069200000000000000000000000000000000),
  (950325901691304114662842764125454400000000000000000000000000000000, 68198162772410476765757958879091690000000000000000000000000000000),
  (989954299612483594817795081715675000000000000000000000000000000000, 18540478478433026282943116859833410000000000000000000000000000000),
  (998830729740359089884532469596265000000000000000000000000000000000, 2914383868881999349615447667892038000000000000000000000000000000),
  (999937186250763944872903141782798000000000000000000000000000000000, 214143628385901787610346293575999600000000000000000000000000000),
  (999998874610051203021956005489345400000000000000000000000000000000, 5300552076806876435685604560939218000000000000000000000000000)]

/-- n = 15. quadrature_lib.cpp:5202-5216. -/
def b15 : List (Nat × Nat) := [
  (473477881451062472032984505799903700000000000000000000000000, 2255598762704063328849100449283424000000000000000000000000000),
  (28415038539923868375575641969605560000000000000000000000000000, 99306482868011195513520470932127770000000000000000000000000000),
  (579063292375418191866197163160586100000000000000000000000000000, 1496837086350776367074739366089252000000000000000000000000000000),
  (5447658951972215232164324004121940000000000000000000000000000000, 10535899040126745696057961123085030000000000000000000000000000000),
  (29378660567534347663032731006112510000000000000000000000000000000, 42868658563637446046964922920345250000000000000000000000000000000),
  (104432201221033316839650970802505500000000000000000000000000000000, 113830514588468055945054819319724300000000000000000000000000000000),
  (264681695973334524456607859848074500000000000000000000000000000000, 205595473466201472762786164622999700000000000000000000000000000000),
  (500000000000000000000000000000000000000000000000000000000000000000, 251142110347169575846438046152750000000000000000000000000000000000),
  (735318304026665475543392140151925400000000000000000000000000000000, 205595473466201472762786164622999700000000000000000000000000000000),
  (895567798778966683160349029197494500000000000000000000000000000000, 113830514588468055945054819319724300000000000000000000000000000000),
  (970621339432465652336967268993887400000000000000000000000000000000, 42868658563637446046964922920345250000000000000000000000000000000),
  (994552341048027784767835675995878100000000000000000000000000000000, 10535899040126745696057961123085030000000000000000000000000000000),
  (999420936707624581808133802836839400000000000000000000000000000000, 1496837086350776367074739366089252000000000000000000000000000000),
  (999971584961460076131624424358030400000000000000000000000000000000, 99306482868011195513520470932127770000000000000000000000000000),
  (999999526522118548937527967015494200000000000000000000000000000000, 2255598762704063328849100449283424000000000000000000000000000)]

/-- n = 16. quadrature_lib.cpp:5217-5232. -/
def b16 : List (Nat × Nat) := [
  (201556591590167025921604653524521100000000000000000000000000, 970045870066813361162995027450602400000000000000000000000000),
  (12930453862632681866727555893197280000000000000000000000000000, 46220395825691420960433120717090040000000000000000000000000000),
  (286920022822164082161480081979068200000000000000000000000000000, 766850641484711432467510637200713400000000000000000000000000000),
  (2943493404152615284415682661474736000000000000000000000000000000, 5941398974631109220011615316201030000000000000000000000000000000),
  (17230452287714856998901578237599140000000000000000000000000000000, 26523402237060110979980789853605230000000000000000000000000000000),
  (66391511206929697116252752236631160000000000000000000000000000000, 77845082126613854429123726885605010000000000000000000000000000000),
  (183539188344673293285899569760541700000000000000000000000000000000, 159427828081506315994937049023914400000000000000000000000000000000),
  (381696072395707310145798016693045800000000000000000000000000000000, 229448247497008139709157712167729100000000000000000000000000000000),
  (618303927604292689854201983306954300000000000000000000000000000000, 229448247497008139709157712167729100000000000000000000000000000000),
  (816460811655326706714100430239458300000000000000000000000000000000, 159427828081506315994937049023914400000000000000000000000000000000),
  (933608488793070302883747247763368700000000000000000000000000000000, 77845082126613854429123726885605010000000000000000000000000000000),
  (982769547712285143001098421762400900000000000000000000000000000000, 26523402237060110979980789853605230000000000000000000000000000000),
  (997056506595847384715584317338525300000000000000000000000000000000, 5941398974631109220011615316201028000000000000000000000000000000),
  (999713079977177835917838519918020900000000000000000000000000000000, 766850641484711432467510637200713700000000000000000000000000000),
  (999987069546137367318133272444106700000000000000000000000000000000, 46220395825691420960433120717090040000000000000000000000000000),
  (999999798443408409832974078395346500000000000000000000000000000000, 970045870066813361162995027450602400000000000000000000000000)]

/-- n = 17. quadrature_lib.cpp:5233-5249. -/
def b17 : List (Nat × Nat) := [
  (86731371425097024151424630202865210000000000000000000000000, 421280066385543936560938220476845200000000000000000000000000),
  (5917342096526272476025266892679780000000000000000000000000000, 21591210961791391747267171917268150000000000000000000000000000),
  (142258066074520859209392560829722800000000000000000000000000000, 392076363994857023155846276788821900000000000000000000000000000),
  (1585500293153781130995207259440335000000000000000000000000000000, 3328968900100264274394916824676114000000000000000000000000000000),
  (10038576842169523146068425352290700000000000000000000000000000000, 16215034370491240563324687187411940000000000000000000000000000000),
  (41687297330330511452437551101616510000000000000000000000000000000, 52002323709088544105654553677341780000000000000000000000000000000),
  (124516322586634242231667335022378700000000000000000000000000000000, 118227140988535662885903606606187500000000000000000000000000000000),
  (281976318853618024280352778952661200000000000000000000000000000000, 194635908276605457369537888220037100000000000000000000000000000000),
  (500000000000000000000000000000000000000000000000000000000000000000, 230353069800311593684689346194838200000000000000000000000000000000),
  (718023681146381975719647221047338800000000000000000000000000000000, 194635908276605457369537888220037100000000000000000000000000000000),
  (875483677413365757768332664977621300000000000000000000000000000000, 118227140988535662885903606606187500000000000000000000000000000000),
  (958312702669669488547562448898383600000000000000000000000000000000, 52002323709088544105654553677341780000000000000000000000000000000),
  (989961423157830476853931574647709400000000000000000000000000000000, 16215034370491240563324687187411940000000000000000000000000000000),
  (998414499706846218869004792740559600000000000000000000000000000000, 3328968900100264274394916824676114000000000000000000000000000000),
  (999857741933925479140790607439170300000000000000000000000000000000, 392076363994857023155846276788821900000000000000000000000000000),
  (999994082657903473727523974733107400000000000000000000000000000000, 21591210961791391747267171917268150000000000000000000000000000),
  (999999913268628574902975848575369900000000000000000000000000000000, 421280066385543936560938220476845100000000000000000000000000)]

/-- n = 18. quadrature_lib.cpp:5250-5267. -/
def b18 : List (Nat × Nat) := [
  (37694365525716598142702132457231480000000000000000000000000, 184628683644543622920185496952505200000000000000000000000000),
  (2722558781159410270952551588774274000000000000000000000000000, 10122913479106786120425567618195910000000000000000000000000000),
  (70587660000765548499804537707093630000000000000000000000000000, 200141756000831164150187557668469400000000000000000000000000000),
  (851688059569067587356533982328145000000000000000000000000000000, 1854809373229945621247572036775528000000000000000000000000000000),
  (5815880293824977781652967367239163000000000000000000000000000000, 9818035716532985928095608190102987000000000000000000000000000000),
  (25925281035869045619831617031784950000000000000000000000000000000, 34145607778832009801208696561365700000000000000000000000000000000),
  (83086781873143234963103624311775120000000000000000000000000000000, 84894805841350497935722097218059830000000000000000000000000000000),
  (202950602823644657335161404700133200000000000000000000000000000000, 156206142005370660263660475660724100000000000000000000000000000000),
  (390752982025426914313711187102602900000000000000000000000000000000, 212870149986520317956172017022188300000000000000000000000000000000),
  (609247017974573085686288812897397100000000000000000000000000000000, 212870149986520317956172017022188300000000000000000000000000000000),
  (797049397176355342664838595299866900000000000000000000000000000000, 156206142005370660263660475660724100000000000000000000000000000000),
  (916913218126856765036896375688224900000000000000000000000000000000, 84894805841350497935722097218059830000000000000000000000000000000),
  (974074718964130954380168382968215100000000000000000000000000000000, 34145607778832009801208696561365700000000000000000000000000000000),
  (994184119706175022218347032632760900000000000000000000000000000000, 9818035716532985928095608190102985000000000000000000000000000000),
  (999148311940430932412643466017671800000000000000000000000000000000, 1854809373229945621247572036775528000000000000000000000000000000),
  (999929412339999234451500195462292800000000000000000000000000000000, 200141756000831164150187557668469700000000000000000000000000000),
  (999997277441218840589729047448411100000000000000000000000000000000, 10122913479106786120425567618195910000000000000000000000000000),
  (999999962305634474283401857297867500000000000000000000000000000000, 184628683644543622920185496952505200000000000000000000000000)]

/-- n = 19. quadrature_lib.cpp:5268-5286. -/
def b19 : List (Nat × Nat) := [
  (16534219937461569093059160210923390000000000000000000000000, 81604456585863299779236420051067880000000000000000000000000),
  (1259120118513043769352085341777077000000000000000000000000000, 4763342218064814625025565665172874000000000000000000000000000),
  (35056551701280985265392091155537530000000000000000000000000000, 102040833131998332165294621274154500000000000000000000000000000),
  (456389658241014067226243479352866800000000000000000000000000000, 1028329725595707764451384651714238000000000000000000000000000000),
  (3352893948111765584642505693775135000000000000000000000000000000, 5896437166037359120231439288522601000000000000000000000000000000),
  (15997492542953865685455758067914140000000000000000000000000000000, 22125237828362894191362846195209230000000000000000000000000000000),
  (54738182027100319311096407646998450000000000000000000000000000000, 59535713651197212455031890474830780000000000000000000000000000000),
  (143121421191540342515923942058247600000000000000000000000000000000, 120301039734818670661517132406541500000000000000000000000000000000),
  (296744493562365083819934822295151200000000000000000000000000000000, 184462202594433999708141680860767200000000000000000000000000000000),
  (500000000000000000000000000000000000000000000000000000000000000000, 213088307039495014178347053398110100000000000000000000000000000000),
  (703255506437634916180065177704848800000000000000000000000000000000, 184462202594433999708141680860767200000000000000000000000000000000),
  (856878578808459657484076057941752300000000000000000000000000000000, 120301039734818670661517132406541500000000000000000000000000000000),
  (945261817972899680688903592353001500000000000000000000000000000000, 59535713651197212455031890474830780000000000000000000000000000000),
  (984002507457046134314544241932085900000000000000000000000000000000, 22125237828362894191362846195209230000000000000000000000000000000),
  (996647106051888234415357494306224900000000000000000000000000000000, 5896437166037359120231439288522597000000000000000000000000000000),
  (999543610341758985932773756520647100000000000000000000000000000000, 1028329725595707764451384651714238000000000000000000000000000000),
  (999964943448298719014734607908844400000000000000000000000000000000, 102040833131998332165294621274154300000000000000000000000000000),
  (999998740879881486956230647914658300000000000000000000000000000000, 4763342218064814625025565665172874000000000000000000000000000),
  (999999983465780062538430906940839900000000000000000000000000000000, 81604456585863299779236420051067880000000000000000000000000)]

/-- n = 20. quadrature_lib.cpp:5287-5306. -/
def b20 : List (Nat × Nat) := [
  (7315139427183662515381510620068939000000000000000000000000, 36356446532092601341776287495738630000000000000000000000000),
  (585203439552991766638953643879855200000000000000000000000000, 2249487175560822639779285766150265000000000000000000000000000),
  (17428024862946937058141961025231460000000000000000000000000000, 51978565924484842229500641752180220000000000000000000000000000),
  (244032332578444035579841602131404800000000000000000000000000000, 567591845757221481512935279002444300000000000000000000000000000),
  (1924370996774887054059545415529306000000000000000000000000000000, 3515918860428070853523469233069196000000000000000000000000000000),
  (9806001984534427712640946226049875000000000000000000000000000000, 14183419197292822232545739734251480000000000000000000000000000000),
  (35697307610773731452322644272659790000000000000000000000000000000, 41013461765344317145551186483220790000000000000000000000000000000),
  (99327972164102498339664386921223410000000000000000000000000000000, 89839322093015039790262353983732940000000000000000000000000000000),
  (220131915310236466180708180574668700000000000000000000000000000000, 152124501185750902981031136551426800000000000000000000000000000000),
  (398391214661196603505438176509424700000000000000000000000000000000, 198701520642865047758102557031490500000000000000000000000000000000),
  (601608785338803396494561823490575300000000000000000000000000000000, 198701520642865047758102557031490500000000000000000000000000000000),
  (779868084689763533819291819425331300000000000000000000000000000000, 152124501185750902981031136551426800000000000000000000000000000000),
  (900672027835897501660335613078776700000000000000000000000000000000, 89839322093015039790262353983732940000000000000000000000000000000),
  (964302692389226268547677355727340300000000000000000000000000000000, 41013461765344317145551186483220790000000000000000000000000000000),
  (990193998015465572287359053773950100000000000000000000000000000000, 14183419197292822232545739734251480000000000000000000000000000000),
  (998075629003225112945940454584470700000000000000000000000000000000, 3515918860428070853523469233069196000000000000000000000000000000),
  (999755967667421555964420158397868500000000000000000000000000000000, 567591845757221481512935279002444300000000000000000000000000000),
  (999982571975137053062941858038974700000000000000000000000000000000, 51978565924484842229500641752180220000000000000000000000000000),
  (999999414796560447008233361046356100000000000000000000000000000000, 2249487175560822639779285766150265000000000000000000000000000),
  (999999992684860572816337484618489300000000000000000000000000000000, 36356446532092601341776287495738630000000000000000000000000)]

/-- n = 21. quadrature_lib.cpp:5307-5327. -/
def b21 : List (Nat × Nat) := [
  (3262494183653799496192549248605073000000000000000000000000, 16318987869097249596696792991131350000000000000000000000000),
  (273283886399720286994360403230906300000000000000000000000000, 1066115680038194310568338035112062000000000000000000000000000),
  (8673855089145480487818049003774064000000000000000000000000000, 26461711179548794360152810594301500000000000000000000000000000),
  (130233498307584470433730382015442500000000000000000000000000000, 312039668703269583097820416192397900000000000000000000000000000),
  (1099963503709767725303106940490835000000000000000000000000000000, 2082944829175426778916954106260392000000000000000000000000000000),
  (5975516538327287221962488586962111000000000000000000000000000000, 9010025841956182594015011261811626000000000000000000000000000000),
  (23085324794699080802501053463251000000000000000000000000000000000, 27862294485996918884847977945279960000000000000000000000000000000),
  (68064471546516450909025557112244400000000000000000000000000000000, 65546518090884178589183834654595530000000000000000000000000000000),
  (160239035181489370369121381659143400000000000000000000000000000000, 120781661903503400844982157397084700000000000000000000000000000000),
  (309499414187787420561482340845139100000000000000000000000000000000, 175129321748356146459344202926798600000000000000000000000000000000),
  (500000000000000000000000000000000000000000000000000000000000000000, 198495298571154040359383446893108500000000000000000000000000000000),
  (690500585812212579438517659154860800000000000000000000000000000000, 175129321748356146459344202926798700000000000000000000000000000000),
  (839760964818510629630878618340856600000000000000000000000000000000, 120781661903503400844982157397084700000000000000000000000000000000),
  (931935528453483549090974442887755700000000000000000000000000000000, 65546518090884178589183834654595530000000000000000000000000000000),
  (976914675205300919197498946536748900000000000000000000000000000000, 27862294485996918884847977945279960000000000000000000000000000000),
  (994024483461672712778037511413037900000000000000000000000000000000, 9010025841956182594015011261811626000000000000000000000000000000),
  (998900036496290232274696893059509100000000000000000000000000000000, 2082944829175426778916954106260391000000000000000000000000000000),
  (999869766501692415529566269617984500000000000000000000000000000000, 312039668703269583097820416192397900000000000000000000000000000),
  (999991326144910854519512181950996400000000000000000000000000000000, 26461711179548794360152810594301500000000000000000000000000000),
  (999999726716113600279713005639596800000000000000000000000000000000, 1066115680038194310568338035112062000000000000000000000000000),
  (999999996737505816346200503807450800000000000000000000000000000000, 16318987869097249596696792991131350000000000000000000000000)]

/-- n = 22. quadrature_lib.cpp:5328-5349. -/
def b22 : List (Nat × Nat) := [
  (1466049537255179304878376555323893000000000000000000000000, 7376696701945217327842246563918820000000000000000000000000),
  (128207135167697841924272819569431600000000000000000000000000, 507054167377956215232268888988175700000000000000000000000000),
  (4322184712716369211550538133040255000000000000000000000000000, 13466971765559147828897812764054370000000000000000000000000000),
  (69384692118268020906834251732501530000000000000000000000000000, 170936231810737611273440348335482000000000000000000000000000000),
  (626353011713592237941277486164474900000000000000000000000000000, 1226719044801295875290441447411442000000000000000000000000000000),
  (3621858158242579546149641961312037000000000000000000000000000000, 5678045257414163522918169373595882000000000000000000000000000000),
  (14822131067765272840202474759243950000000000000000000000000000000, 18714451362390583271631328329944330000000000000000000000000000000),
  (46162074803292260988651591796578270000000000000000000000000000000, 46970649044255773942940948276202560000000000000000000000000000000),
  (114876920047239307441626051189752300000000000000000000000000000000, 93138693690066563472366207042416500000000000000000000000000000000),
  (235404881058130104977365079829072300000000000000000000000000000000, 147636617531669430957002528589823200000000000000000000000000000000),
  (404928248675431065418000363457818400000000000000000000000000000000, 186449906434961812297315478668371100000000000000000000000000000000),
  (595071751324568934581999636542181700000000000000000000000000000000, 186449906434961812297315478668371100000000000000000000000000000000),
  (764595118941869895022634920170927700000000000000000000000000000000, 147636617531669430957002528589823200000000000000000000000000000000),
  (885123079952760692558373948810247600000000000000000000000000000000, 93138693690066563472366207042416500000000000000000000000000000000),
  (953837925196707739011348408203421700000000000000000000000000000000, 46970649044255773942940948276202560000000000000000000000000000000),
  (985177868932234727159797525240756200000000000000000000000000000000, 18714451362390583271631328329944330000000000000000000000000000000),
  (996378141841757420453850358038688100000000000000000000000000000000, 5678045257414163522918169373595882000000000000000000000000000000),
  (999373646988286407762058722513835500000000000000000000000000000000, 1226719044801295875290441447411442000000000000000000000000000000),
  (999930615307881731979093165748267500000000000000000000000000000000, 170936231810737611273440348335482000000000000000000000000000000),
  (999995677815287283630788449461867000000000000000000000000000000000, 13466971765559147828897812764054370000000000000000000000000000),
  (999999871792864832302158075727180400000000000000000000000000000000, 507054167377956215232268888988175700000000000000000000000000),
  (999999998533950462744820695121623400000000000000000000000000000000, 7376696701945217327842246563918820000000000000000000000000)]

/-- n = 23. quadrature_lib.cpp:5350-5372. -/
def b23 : List (Nat × Nat) := [
  (663476633925101207116834708527517600000000000000000000000, 3356746260811440961045701723137048000000000000000000000000),
  (60412944532545482577291675986738800000000000000000000000000, 241997553015474761637780355550879700000000000000000000000000),
  (2156548071807031037289875532224138000000000000000000000000000, 6853022847594425615181471524187060000000000000000000000000000),
  (36911952385148272477932701364604780000000000000000000000000000, 93341653619552639823757141007158620000000000000000000000000000),
  (355409734040698369903332343073667200000000000000000000000000000, 718524700434944695828787246641241500000000000000000000000000000),
  (2184384110690502989827030284457517000000000000000000000000000000, 3552486357610488128109156240397817000000000000000000000000000000),
  (9456105493215045586563974514300972000000000000000000000000000000, 12449836475182083353258397521638480000000000000000000000000000000),
  (31038406575048434968899484357914490000000000000000000000000000000, 33182668601551731279747847158686960000000000000000000000000000000),
  (81341803393826741860123389959787840000000000000000000000000000000, 70215970844206354362020490490451890000000000000000000000000000000),
  (175943147300960961255116394829819600000000000000000000000000000000, 120181941626668560624997210135361700000000000000000000000000000000),
  (320627692146365885980697946987980700000000000000000000000000000000, 166608510955735851381256213494391700000000000000000000000000000000),
  (500000000000000000000000000000000000000000000000000000000000000000, 185979240815687125646280720547682800000000000000000000000000000000),
  (679372307853634114019302053012019400000000000000000000000000000000, 166608510955735851381256213494391700000000000000000000000000000000),
  (824056852699039038744883605170180500000000000000000000000000000000, 120181941626668560624997210135361700000000000000000000000000000000),
  (918658196606173258139876610040212100000000000000000000000000000000, 70215970844206354362020490490451890000000000000000000000000000000),
  (968961593424951565031100515642085400000000000000000000000000000000, 33182668601551731279747847158686960000000000000000000000000000000),
  (990543894506784954413436025485699000000000000000000000000000000000, 12449836475182083353258397521638460000000000000000000000000000000),
  (997815615889309497010172969715542400000000000000000000000000000000, 3552486357610488128109156240397817000000000000000000000000000000),
  (999644590265959301630096667656926500000000000000000000000000000000, 718524700434944695828787246641241500000000000000000000000000000),
  (999963088047614851727522067298635300000000000000000000000000000000, 93341653619552639823757141007158620000000000000000000000000000),
  (999997843451928192968962710124467900000000000000000000000000000000, 6853022847594425615181471524187060000000000000000000000000000),
  (999999939587055467454517422708323900000000000000000000000000000000, 241997553015474761637780355550879700000000000000000000000000),
  (999999999336523366074898792883165300000000000000000000000000000000, 3356746260811440961045701723137048000000000000000000000000)]

/-- n = 24. quadrature_lib.cpp:5373-5396. -/
def b24 : List (Nat × Nat) := [
  (302277989670487276424638415395000600000000000000000000000, 1537127017100000802586302674191314000000000000000000000000),
  (28589099832792407321970381185913600000000000000000000000000, 115890921542365088763854321330017800000000000000000000000000),
  (1077487834041782312899624556525082000000000000000000000000000, 3487741000443374763313944409103276000000000000000000000000000),
  (19612105293803420910168573147331220000000000000000000000000000, 50826207865158659163310995112930890000000000000000000000000000),
  (201010694516277785343472429507850300000000000000000000000000000, 418741548406558724827028966317163900000000000000000000000000000),
  (1311303053899247355020426160828491000000000000000000000000000000, 2207877945005526044690520148161635000000000000000000000000000000),
  (5997728934183026787103185671190193000000000000000000000000000000, 8212795411082386688938691550590701000000000000000000000000000000),
  (20714647300091420117437748890114030000000000000000000000000000000, 23169927569598617940152136099590450000000000000000000000000000000),
  (57008873482488086335918039262949420000000000000000000000000000000, 52000801562731165064013606794966510000000000000000000000000000000),
  (129618203218071648695149278592478600000000000000000000000000000000, 95177417832901344929452403744387790000000000000000000000000000000),
  (249047838368826738632934044979324000000000000000000000000000000000, 143011380210611221807182418355967700000000000000000000000000000000),
  (410592627413673617456920284928607500000000000000000000000000000000, 175746626542749017301727002959872100000000000000000000000000000000),
  (589407372586326382543079715071392500000000000000000000000000000000, 175746626542749017301727002959872100000000000000000000000000000000),
  (750952161631173261367065955020675900000000000000000000000000000000, 143011380210611221807182418355967700000000000000000000000000000000),
  (870381796781928351304850721407521400000000000000000000000000000000, 95177417832901344929452403744387790000000000000000000000000000000),
  (942991126517511913664081960737050500000000000000000000000000000000, 52000801562731165064013606794966510000000000000000000000000000000),
  (979285352699908579882562251109885900000000000000000000000000000000, 23169927569598617940152136099590450000000000000000000000000000000),
  (994002271065816973212896814328809900000000000000000000000000000000, 8212795411082386688938691550590701000000000000000000000000000000),
  (998688696946100752644979573839171600000000000000000000000000000000, 2207877945005526044690520148161635000000000000000000000000000000),
  (999798989305483722214656527570492100000000000000000000000000000000, 418741548406558724827028966317163900000000000000000000000000000),
  (999980387894706196579089831426852700000000000000000000000000000000, 50826207865158659163310995112930910000000000000000000000000000),
  (999998922512165958217687100375443400000000000000000000000000000000, 3487741000443374763313944409103276000000000000000000000000000),
  (999999971410900167207592678029618800000000000000000000000000000000, 115890921542365088763854321330017800000000000000000000000000),
  (999999999697722010329512723575361500000000000000000000000000000000, 1537127017100000802586302674191315000000000000000000000000)]

/-- n = 25. quadrature_lib.cpp:5397-5421. -/
def b25 : List (Nat × Nat) := [
  (138590646153924217737679090089443600000000000000000000000, 708102620943107484453489108765625700000000000000000000000),
  (13585029300356873520740690218097150000000000000000000000000, 55685652810089744851074380773426720000000000000000000000000),
  (539127100305934253599442135650197900000000000000000000000000, 1775556853146564717673585600809089000000000000000000000000000),
  (10409288907448508183579274535245160000000000000000000000000000, 27606594058361257157000664308852260000000000000000000000000000),
  (113342871257173824619206254122212900000000000000000000000000000, 242897044176152356582011910135248200000000000000000000000000000),
  (783735495409960612254200790325271800000000000000000000000000000, 1363720095402990266805881620084728000000000000000000000000000000),
  (3783666026808440696857940617978993000000000000000000000000000000, 5376732967559261216566227155021325000000000000000000000000000000),
  (13733487229693113578870379545824040000000000000000000000000000000, 16019299549255727125322360694570020000000000000000000000000000000),
  (39609972786884033818801901466084370000000000000000000000000000000, 37963703168246375761289503754371930000000000000000000000000000000),
  (94355548154872833434855240626431420000000000000000000000000000000, 73751348912487754572308371090053330000000000000000000000000000000),
  (190342454438619123450862535717257500000000000000000000000000000000, 118858977153184968518283709393062600000000000000000000000000000000),
  (330424475677307362488038885036202100000000000000000000000000000000, 158837872318729735202972861030375600000000000000000000000000000000),
  (500000000000000000000000000000000000000000000000000000000000000000, 175112020492580192250284127149091100000000000000000000000000000000),
  (669575524322692637511961114963797900000000000000000000000000000000, 158837872318729735202972861030375600000000000000000000000000000000),
  (809657545561380876549137464282742500000000000000000000000000000000, 118858977153184968518283709393062600000000000000000000000000000000),
  (905644451845127166565144759373568500000000000000000000000000000000, 73751348912487754572308371090053330000000000000000000000000000000),
  (960390027213115966181198098533915700000000000000000000000000000000, 37963703168246375761289503754371930000000000000000000000000000000),
  (986266512770306886421129620454175900000000000000000000000000000000, 16019299549255727125322360694570020000000000000000000000000000000),
  (996216333973191559303142059382021000000000000000000000000000000000, 5376732967559261216566227155021325000000000000000000000000000000),
  (999216264504590039387745799209674800000000000000000000000000000000, 1363720095402990266805881620084728000000000000000000000000000000),
  (999886657128742826175380793745877700000000000000000000000000000000, 242897044176152356582011910135248200000000000000000000000000000),
  (999989590711092551491816420725464700000000000000000000000000000000, 27606594058361257157000664308852220000000000000000000000000000),
  (999999460872899694065746400557864400000000000000000000000000000000, 1775556853146564717673585600809089000000000000000000000000000),
  (999999986414970699643126479259309800000000000000000000000000000000, 55685652810089744851074380773426720000000000000000000000000),
  (999999999861409353846075782262320900000000000000000000000000000000, 708102620943107484453489108765625700000000000000000000000)]

/-- n = 26. quadrature_lib.cpp:5422-5447. -/
def b26 : List (Nat × Nat) := [
  (63924149199578659096414291435087680000000000000000000000, 328057868720587098153098604962848400000000000000000000000),
  (6481130745077828954541284572490167000000000000000000000000, 26845109270428864364095175838710070000000000000000000000000),
  (270158920305015949743791918684315000000000000000000000000000, 904319110189662906207257546449221500000000000000000000000000),
  (5519979354629530683315746705872524000000000000000000000000000, 14961724821924675102455091153748440000000000000000000000000000),
  (63731746513140393531508730899981690000000000000000000000000000, 140289011212467014906810221727069300000000000000000000000000000),
  (466480742048631025054628036076721300000000000000000000000000000, 837436879846699469877038191566692600000000000000000000000000000),
  (2374802574591999505097747218862606000000000000000000000000000000, 3495484581858793833417881533228717000000000000000000000000000000),
  (9050348372545475546762249305192655000000000000000000000000000000, 10980165708880766083291973517289800000000000000000000000000000000),
  (27314820986852261290161603007510400000000000000000000000000000000, 27390521668671161601567910031944100000000000000000000000000000000),
  (68000106507606397855721691455954300000000000000000000000000000000, 56160781710849213240838480060265540000000000000000000000000000000),
  (143511476200783062415680326359832500000000000000000000000000000000, 96261103037865115991247614348478530000000000000000000000000000000),
  (261295788671397867157965782220394800000000000000000000000000000000, 138407146636866706534071998565201600000000000000000000000000000000),
  (415553113699802355785277790617382700000000000000000000000000000000, 166311177546849822743320168933323200000000000000000000000000000000),
  (584446886300197644214722209382617200000000000000000000000000000000, 166311177546849822743320168933323200000000000000000000000000000000),
  (738704211328602132842034217779605200000000000000000000000000000000, 138407146636866706534071998565201600000000000000000000000000000000),
  (856488523799216937584319673640167500000000000000000000000000000000, 96261103037865115991247614348478530000000000000000000000000000000),
  (931999893492393602144278308544045600000000000000000000000000000000, 56160781710849213240838480060265540000000000000000000000000000000),
  (972685179013147738709838396992489500000000000000000000000000000000, 27390521668671161601567910031944100000000000000000000000000000000),
  (990949651627454524453237750694807300000000000000000000000000000000, 10980165708880766083291973517289800000000000000000000000000000000),
  (997625197425408000494902252781137400000000000000000000000000000000, 3495484581858793833417881533228717000000000000000000000000000000),
  (999533519257951368974945371963923300000000000000000000000000000000, 837436879846699469877038191566692600000000000000000000000000000),
  (999936268253486859606468491269100000000000000000000000000000000000, 140289011212467014906810221727069300000000000000000000000000000),
  (999994480020645370469316684253294100000000000000000000000000000000, 14961724821924675102455091153748420000000000000000000000000000),
  (999999729841079694984050256208081400000000000000000000000000000000, 904319110189662906207257546449221500000000000000000000000000),
  (999999993518869254922171045458715500000000000000000000000000000000, 26845109270428864364095175838710070000000000000000000000000),
  (999999999936075850800421340903585800000000000000000000000000000000, 328057868720587098153098604962847600000000000000000000000)]

/-- n = 27. quadrature_lib.cpp:5448-5474. -/
def b27 : List (Nat × Nat) := [
  (29653056180049503709923184754541610000000000000000000000, 152811399299844401606389829187896900000000000000000000000),
  (3103950550694124963456869089075158000000000000000000000000, 12983350013663208798486241829467150000000000000000000000000),
  (135586555379674378501068396178945600000000000000000000000000, 460855831821942165080535332461118800000000000000000000000000),
  (2925144329919632905446359836526498000000000000000000000000000, 8093087879274706799364709187774046000000000000000000000000000),
  (35743845375878313916713210217333940000000000000000000000000000, 80703953748532988062957024612345580000000000000000000000000000),
  (276563629961534885103558185670462600000000000000000000000000000, 511454608316479756261557572112837900000000000000000000000000000),
  (1483350129797120937931072583734875000000000000000000000000000000, 2257658444001214002848668493082245000000000000000000000000000000),
  (5930848261914063545300674561846517000000000000000000000000000000, 7467971811588349513582289111726160000000000000000000000000000000),
  (18710432328399018487291431917360650000000000000000000000000000000, 19565150092977409962687445434835410000000000000000000000000000000),
  (48587649454097137252474847848146740000000000000000000000000000000, 42163049844351600777425219958193160000000000000000000000000000000),
  (106970626797113513734810586787838900000000000000000000000000000000, 76350400633135154869114702438850360000000000000000000000000000000),
  (203555790312321649335415417368133100000000000000000000000000000000, 117060807132992527357220413889949800000000000000000000000000000000),
  (339118243533364388303269845683391100000000000000000000000000000000, 151745594553650696257471913385531900000000000000000000000000000000),
  (500000000000000000000000000000000000000000000000000000000000000000, 165577283690731049806614374707907600000000000000000000000000000000),
  (660881756466635611696730154316608800000000000000000000000000000000, 151745594553650696257471913385531900000000000000000000000000000000),
  (796444209687678350664584582631867000000000000000000000000000000000, 117060807132992527357220413889949800000000000000000000000000000000),
  (893029373202886486265189413212161100000000000000000000000000000000, 76350400633135154869114702438850360000000000000000000000000000000),
  (951412350545902862747525152151853200000000000000000000000000000000, 42163049844351600777425219958193160000000000000000000000000000000),
  (981289567671600981512708568082639500000000000000000000000000000000, 19565150092977409962687445434835410000000000000000000000000000000),
  (994069151738085936454699325438153600000000000000000000000000000000, 7467971811588349513582289111726160000000000000000000000000000000),
  (998516649870202879062068927416265100000000000000000000000000000000, 2257658444001214002848668493082246000000000000000000000000000000),
  (999723436370038465114896441814329600000000000000000000000000000000, 511454608316479756261557572112837900000000000000000000000000000),
  (999964256154624121686083286789782500000000000000000000000000000000, 80703953748532988062957024612345580000000000000000000000000000),
  (999997074855670080367094553640163400000000000000000000000000000000, 8093087879274706799364709187774046000000000000000000000000000),
  (999999864413444620325621498931603800000000000000000000000000000000, 460855831821942165080535332461118800000000000000000000000000),
  (999999996896049449305875036543130800000000000000000000000000000000, 12983350013663208798486241829467150000000000000000000000000),
  (999999999970346943819950496290076900000000000000000000000000000000, 152811399299844401606389829187896900000000000000000000000)]

/-- n = 28. quadrature_lib.cpp:5475-5502. -/
def b28 : List (Nat × Nat) := [
  (13830197407885629200662971302646610000000000000000000000, 71549186543381993173986957819464690000000000000000000000),
  (1492104611992756562454559956268872000000000000000000000000, 6299113507087396414312815333745013000000000000000000000000),
  (68155245785701016169670068760177720000000000000000000000000, 235026170593606833714230749563854300000000000000000000000000),
  (1549239600507716454107793246074130000000000000000000000000000, 4370392315653875140219731815064343000000000000000000000000000),
  (19999702784571004625451459107819420000000000000000000000000000, 46256411298686479678725663997661050000000000000000000000000000),
  (163361281591311853296158864887291700000000000000000000000000000, 310763923654325422337836922387981000000000000000000000000000000),
  (922273336951268104243127407242927500000000000000000000000000000, 1449219370084317748808638197354855000000000000000000000000000000),
  (3866121687261634158448404780325429000000000000000000000000000000, 5043138940285980383473298492121600000000000000000000000000000000),
  (12738593271895510028935681198426880000000000000000000000000000000, 13853921802737304839096440931187130000000000000000000000000000000),
  (34458049887097068060884650742657690000000000000000000000000000000, 31282980902362618898007510298550200000000000000000000000000000000),
  (78960906608916426521675126398401360000000000000000000000000000000, 59540086011599769943141302913662030000000000000000000000000000000),
  (156560878205534990151417987272181700000000000000000000000000000000, 96626769233444867123280403203287640000000000000000000000000000000),
  (272345232529110045663439686699215900000000000000000000000000000000, 133915459802588946195483413166574600000000000000000000000000000000),
  (419937100768085364522539922455993200000000000000000000000000000000, 157926791812794241853940088761509200000000000000000000000000000000),
  (580062899231914635477460077544006800000000000000000000000000000000, 157926791812794241853940088761509200000000000000000000000000000000),
  (727654767470889954336560313300784100000000000000000000000000000000, 133915459802588946195483413166574600000000000000000000000000000000),
  (843439121794465009848582012727818200000000000000000000000000000000, 96626769233444867123280403203287640000000000000000000000000000000),
  (921039093391083573478324873601598600000000000000000000000000000000, 59540086011599769943141302913662030000000000000000000000000000000),
  (965541950112902931939115349257342300000000000000000000000000000000, 31282980902362618898007510298550200000000000000000000000000000000),
  (987261406728104489971064318801573100000000000000000000000000000000, 13853921802737304839096440931187130000000000000000000000000000000),
  (996133878312738365841551595219674600000000000000000000000000000000, 5043138940285980383473298492121600000000000000000000000000000000),
  (999077726663048731895756872592757000000000000000000000000000000000, 1449219370084317748808638197354855000000000000000000000000000000),
  (999836638718408688146703841135112600000000000000000000000000000000, 310763923654325422337836922387980500000000000000000000000000000),
  (999980000297215428995374548540892200000000000000000000000000000000, 46256411298686479678725663997661040000000000000000000000000000),
  (999998450760399492283545892206753900000000000000000000000000000000, 4370392315653875140219731815064343000000000000000000000000000),
  (999999931844754214298983830329931100000000000000000000000000000000, 235026170593606833714230749563854300000000000000000000000000),
  (999999998507895388007243437545440100000000000000000000000000000000, 6299113507087396414312815333745013000000000000000000000000),
  (999999999986169802592114370799336900000000000000000000000000000000, 71549186543381993173986957819464690000000000000000000000)]

/-- n = 29. quadrature_lib.cpp:5503-5531. -/
def b29 : List (Nat × Nat) := [
  (6483842633462817202606670659680134000000000000000000000, 33666523228240637920621312870578940000000000000000000000),
  (719869230811853760510233248283303500000000000000000000000, 3065592186857513977734965516583522000000000000000000000000),
  (34314701323506003335419441718553970000000000000000000000000, 119955333938426677040017089001059700000000000000000000000000),
  (820188313467366001829225048064073400000000000000000000000000, 2356678520820547691760382568345761000000000000000000000000000),
  (11166344813714989534416141796522550000000000000000000000000000, 26423070344682522252074560039684120000000000000000000000000000),
  (96158693309703863554180402312211160000000000000000000000000000, 187912231622954252708770759338030200000000000000000000000000000),
  (570907363717900252142313209230033100000000000000000000000000000, 924858834490092154674794016636666400000000000000000000000000000),
  (2507566754760602048381548680862896000000000000000000000000000000, 3383066537120441552062270444220145000000000000000000000000000000),
  (8623869042801117957747077690018009000000000000000000000000000000, 9733471155941759191855848654873238000000000000000000000000000000),
  (24274816384214209988668095581258310000000000000000000000000000000, 22978739505620720593617299113436810000000000000000000000000000000),
  (57797628320986884811350954429117260000000000000000000000000000000, 45787309390996260875248957485403220000000000000000000000000000000),
  (119107692169709941529379980833328000000000000000000000000000000000, 78187467742611943545643464340286510000000000000000000000000000000),
  (215699921183898802854804201464361200000000000000000000000000000000, 114959855274840632780924911234151500000000000000000000000000000000),
  (346888271252958636720475763987179800000000000000000000000000000000, 145260444676216339131288569704801900000000000000000000000000000000),
  (500000000000000000000000000000000000000000000000000000000000000000, 157135943694161408679199247263136100000000000000000000000000000000),
  (653111728747041363279524236012820200000000000000000000000000000000, 145260444676216339131288569704801900000000000000000000000000000000),
  (784300078816101197145195798535638700000000000000000000000000000000, 114959855274840632780924911234151600000000000000000000000000000000),
  (880892307830290058470620019166672000000000000000000000000000000000, 78187467742611943545643464340286530000000000000000000000000000000),
  (942202371679013115188649045570882800000000000000000000000000000000, 45787309390996260875248957485403220000000000000000000000000000000),
  (975725183615785790011331904418741600000000000000000000000000000000, 22978739505620720593617299113436810000000000000000000000000000000),
  (991376130957198882042252922309981900000000000000000000000000000000, 9733471155941759191855848654873242000000000000000000000000000000),
  (997492433245239397951618451319137100000000000000000000000000000000, 3383066537120441552062270444220145000000000000000000000000000000),
  (999429092636282099747857686790770100000000000000000000000000000000, 924858834490092154674794016636666400000000000000000000000000000),
  (999903841306690296136445819597687900000000000000000000000000000000, 187912231622954252708770759338030200000000000000000000000000000),
  (999988833655186285010465583858203400000000000000000000000000000000, 26423070344682522252074560039684080000000000000000000000000000),
  (999999179811686532633998170774951800000000000000000000000000000000, 2356678520820547691760382568345761000000000000000000000000000),
  (999999965685298676493996664580558300000000000000000000000000000000, 119955333938426677040017089001059700000000000000000000000000),
  (999999999280130769188146239489766700000000000000000000000000000000, 3065592186857513977734965516583522000000000000000000000000),
  (999999999993516157366537182797393400000000000000000000000000000000, 33666523228240637920621312870578930000000000000000000000)]

/-- n = 30. quadrature_lib.cpp:5532-5561. -/
def b30 : List (Nat × Nat) := [
  (3054788573769432796199006093572621000000000000000000000, 15916400985145359742648477865124170000000000000000000000),
  (348521629789913153597322396385620700000000000000000000000, 1496452230989198802458966297691944000000000000000000000000),
  (17304915153001022895376714193771110000000000000000000000000, 61279234059319374327614478290336050000000000000000000000000),
  (434099264516971856242569531386645200000000000000000000000000, 1269244233147083827733045477414804000000000000000000000000000),
  (6222249131685749994822584287804176000000000000000000000000000, 15046977165197075557945634674196030000000000000000000000000000),
  (56416122581986340137249844122816850000000000000000000000000000, 113111477995486691814990728474002300000000000000000000000000000),
  (351922603490376749650716910860598800000000000000000000000000000, 586960236067428443442408274486862100000000000000000000000000000),
  (1618605013274758937283567940765229000000000000000000000000000000, 2255245145409995516966349850273965000000000000000000000000000000),
  (5807228853128162941647547839501751000000000000000000000000000000, 6789819114016966552429678961519588000000000000000000000000000000),
  (16997380342984577426736749235712580000000000000000000000000000000, 16731914654953738372348861878227700000000000000000000000000000000),
  (41995684343211399413848231173002980000000000000000000000000000000, 34801992446683706262951528830186460000000000000000000000000000000),
  (89766616682052092159114824052093660000000000000000000000000000000, 62237929766986109217991032024291980000000000000000000000000000000),
  (168795832725022237996175332181876600000000000000000000000000000000, 96456034581591573278135352522198150000000000000000000000000000000),
  (282360072749617257674402303672339000000000000000000000000000000000, 129587113017916134658272812047848100000000000000000000000000000000),
  (423842613899936190372237510157195500000000000000000000000000000000, 150423500545377825552542816386248700000000000000000000000000000000),
  (576157386100063809627762489842804500000000000000000000000000000000, 150423500545377825552542816386248700000000000000000000000000000000),
  (717639927250382742325597696327661000000000000000000000000000000000, 129587113017916134658272812047848100000000000000000000000000000000),
  (831204167274977762003824667818123400000000000000000000000000000000, 96456034581591573278135352522198150000000000000000000000000000000),
  (910233383317947907840885175947906300000000000000000000000000000000, 62237929766986109217991032024291980000000000000000000000000000000),
  (958004315656788600586151768826996900000000000000000000000000000000, 34801992446683706262951528830186460000000000000000000000000000000),
  (983002619657015422573263250764287500000000000000000000000000000000, 16731914654953738372348861878227700000000000000000000000000000000),
  (994192771146871837058352452160498300000000000000000000000000000000, 6789819114016966552429678961519579000000000000000000000000000000),
  (998381394986725241062716432059234800000000000000000000000000000000, 2255245145409995516966349850273965000000000000000000000000000000),
  (999648077396509623250349283089139500000000000000000000000000000000, 586960236067428443442408274486862100000000000000000000000000000),
  (999943583877418013659862750155877200000000000000000000000000000000, 113111477995486691814990728474002300000000000000000000000000000),
  (999993777750868314250005177415712200000000000000000000000000000000, 15046977165197075557945634674196030000000000000000000000000000),
  (999999565900735483028143757430468500000000000000000000000000000000, 1269244233147083827733045477414804000000000000000000000000000),
  (999999982695084846998977104623285800000000000000000000000000000000, 61279234059319374327614478290336060000000000000000000000000),
  (999999999651478370210086846402677700000000000000000000000000000000, 1496452230989198802458966297691944000000000000000000000000),
  (999999999996945211426230567203800900000000000000000000000000000000, 15916400985145359742648477865124170000000000000000000000)]

/-- n = 31. quadrature_lib.cpp:5562-5592. -/
def b31 : List (Nat × Nat) := [
  (1446044363756464402462571429824816000000000000000000000, 7558917362280340607847436347734600000000000000000000000),
  (169309738041812309202997875639765900000000000000000000000, 732649644556857476573007007235768100000000000000000000000),
  (8741270073626891096736200409688097000000000000000000000000, 31335040978167774131695349169496200000000000000000000000000),
  (229718861708791881230676737161028200000000000000000000000000, 682869701926741341043066432768413100000000000000000000000000),
  (3461078145105887541733067093651207000000000000000000000000000, 8544420266321998090173249407451712000000000000000000000000000),
  (32997438514328199393526492979129440000000000000000000000000000, 67796319741630456838934957775532520000000000000000000000000000),
  (216066219319493703661031929135528900000000000000000000000000000, 370554038621167733062790437550793900000000000000000000000000000),
  (1039975175363792047274694165615691000000000000000000000000000000, 1494460969763668776066626912369950000000000000000000000000000000),
  (3890746202198647886933421639627405000000000000000000000000000000, 4705000125625758839021785333503378000000000000000000000000000000),
  (11834834249451074490807962535318800000000000000000000000000000000, 12088594965026784289543210038838850000000000000000000000000000000),
  (30313456050278616549140546062966510000000000000000000000000000000, 26189544890307029364192783218262370000000000000000000000000000000),
  (67102416363025408227153870759293630000000000000000000000000000000, 48870426626521397950748310640246740000000000000000000000000000000),
  (130725558776524099252368908097570500000000000000000000000000000000, 79410104729278165273428750474544310000000000000000000000000000000),
  (226883899585437415858729493882513800000000000000000000000000000000, 112676157405348850841337576161509600000000000000000000000000000000),
  (353877028447005236743824825557292000000000000000000000000000000000, 139316217462954651069424211246162400000000000000000000000000000000),
  (500000000000000000000000000000000000000000000000000000000000000000, 149603766203186213159983710774384400000000000000000000000000000000),
  (646122971552994763256175174442708100000000000000000000000000000000, 139316217462954651069424211246162400000000000000000000000000000000),
  (773116100414562584141270506117486300000000000000000000000000000000, 112676157405348850841337576161509600000000000000000000000000000000),
  (869274441223475900747631091902429500000000000000000000000000000000, 79410104729278165273428750474544300000000000000000000000000000000),
  (932897583636974591772846129240706400000000000000000000000000000000, 48870426626521397950748310640246740000000000000000000000000000000),
  (969686543949721383450859453937033500000000000000000000000000000000, 26189544890307029364192783218262370000000000000000000000000000000),
  (988165165750548925509192037464681100000000000000000000000000000000, 12088594965026784289543210038838850000000000000000000000000000000),
  (996109253797801352113066578360372600000000000000000000000000000000, 4705000125625758839021785333503378000000000000000000000000000000),
  (998960024824636207952725305834384300000000000000000000000000000000, 1494460969763668776066626912369951000000000000000000000000000000),
  (999783933780680506296338968070864600000000000000000000000000000000, 370554038621167733062790437550793900000000000000000000000000000),
  (999967002561485671800606473507020800000000000000000000000000000000, 67796319741630456838934957775532520000000000000000000000000000),
  (999996538921854894112458266932906300000000000000000000000000000000, 8544420266321998090173249407451712000000000000000000000000000),
  (999999770281138291208118769323262800000000000000000000000000000000, 682869701926741341043066432768413100000000000000000000000000),
  (999999991258729926373108903263799500000000000000000000000000000000, 31335040978167774131695349169496200000000000000000000000000),
  (999999999830690261958187690797002200000000000000000000000000000000, 732649644556857476573007007235770500000000000000000000000),
  (999999999998553955636243535597537400000000000000000000000000000000, 7558917362280340607847436347734600000000000000000000000)]

/-- n = 32. quadrature_lib.cpp:5593-5624. -/
def b32 : List (Nat × Nat) := [
  (687619061694881625003148740461259100000000000000000000, 3605483659128904245083516707709886000000000000000000000),
  (82521423347079937163360587074434770000000000000000000000, 359738289538086677026293286459585900000000000000000000000),
  (4422834415653183104266189677456386000000000000000000000000, 16039777019940085960907098781308650000000000000000000000000),
  (121557916895001917360464093106349600000000000000000000000000, 367073868563920798643158873920699700000000000000000000000000),
  (1922104405394376341270104456250515000000000000000000000000000, 4839366684342054776145151545373076000000000000000000000000000),
  (19244361703519119038894152794989100000000000000000000000000000, 40473303683645212638525564470286370000000000000000000000000000),
  (132149474553823078396234645328401000000000000000000000000000000, 232764037905684012518039170204500500000000000000000000000000000),
  (665234540167902875322321431862813500000000000000000000000000000, 984689465934252092640542152186201300000000000000000000000000000),
  (2594084882959829092887097121566887000000000000000000000000000000, 3239943500729591764513871075872383000000000000000000000000000000),
  (8196755551170816053690271286456168000000000000000000000000000000, 8671975599214218543744920431039297000000000000000000000000000000),
  (21749975411136597963792916927841730000000000000000000000000000000, 19537607139971688799058360305312660000000000000000000000000000000),
  (49799688598971415309955570879938900000000000000000000000000000000, 37934674581902495729530774832057480000000000000000000000000000000),
  (100331232009152923183691318454395600000000000000000000000000000000, 64351204891146102132762376377509240000000000000000000000000000000),
  (180259165942377089621940045791858400000000000000000000000000000000, 95887295433797571214927602555019330000000000000000000000000000000),
  (291477201460242369721215496692973500000000000000000000000000000000, 125447913773158677483233078593819000000000000000000000000000000000),
  (427346358042803631675871229778937500000000000000000000000000000000, 143666235428882373901555578453614700000000000000000000000000000000),
  (572653641957196368324128770221062500000000000000000000000000000000, 143666235428882373901555578453614700000000000000000000000000000000),
  (708522798539757630278784503307026500000000000000000000000000000000, 125447913773158677483233078593819000000000000000000000000000000000),
  (819740834057622910378059954208141600000000000000000000000000000000, 95887295433797571214927602555019330000000000000000000000000000000),
  (899668767990847076816308681545604400000000000000000000000000000000, 64351204891146102132762376377509220000000000000000000000000000000),
  (950200311401028584690044429120061000000000000000000000000000000000, 37934674581902495729530774832057480000000000000000000000000000000),
  (978250024588863402036207083072158400000000000000000000000000000000, 19537607139971688799058360305312660000000000000000000000000000000),
  (991803244448829183946309728713543800000000000000000000000000000000, 8671975599214218543744920431039297000000000000000000000000000000),
  (997405915117040170907112902878433200000000000000000000000000000000, 3239943500729591764513871075872383000000000000000000000000000000),
  (999334765459832097124677678568137300000000000000000000000000000000, 984689465934252092640542152186201300000000000000000000000000000),
  (999867850525446176921603765354671600000000000000000000000000000000, 232764037905684012518039170204500500000000000000000000000000000),
  (999980755638296480880961105847205000000000000000000000000000000000, 40473303683645212638525564470286370000000000000000000000000000),
  (999998077895594605623658729895543800000000000000000000000000000000, 4839366684342054776145151545373076000000000000000000000000000),
  (999999878442083104998082639535906900000000000000000000000000000000, 367073868563920798643158873920699700000000000000000000000000),
  (999999995577165584346816895733810300000000000000000000000000000000, 16039777019940085960907098781308650000000000000000000000000),
  (999999999917478576652920062836639400000000000000000000000000000000, 359738289538086677026293286459587000000000000000000000000),
  (999999999999312380938305118374996800000000000000000000000000000000, 3605483659128904245083516707709886000000000000000000000)]

/-- n = 33. quadrature_lib.cpp:5625-5657. -/
def b33 : List (Nat × Nat) := [
  (328397829624725350435714146195424100000000000000000000, 1726963549852481525008395189956416000000000000000000000),
  (40349913818708088394332012249513220000000000000000000000, 177135703682742788701975670042780900000000000000000000000),
  (2241564369041552890522873527665929000000000000000000000000, 8219421312260755368757308131251412000000000000000000000000),
  (64326697233155353307416533091951960000000000000000000000000, 197178811377111577624235350518834400000000000000000000000000),
  (1065892055706840940595352948802843000000000000000000000000000, 2734418927721377983675554017083935000000000000000000000000000),
  (11193186779449532960879868909287800000000000000000000000000000, 24071559447207357912032611975649200000000000000000000000000000),
  (80530759528836981164080314618693620000000000000000000000000000, 145515435076550842492409341222465000000000000000000000000000000),
  (423710014657876652250808080554317500000000000000000000000000000, 645272523301183984325269015193379800000000000000000000000000000),
  (1721470690179004307616684956184450000000000000000000000000000000, 2217807002123405634806379765729588000000000000000000000000000000),
  (5648502486616538780818455404223300000000000000000000000000000000, 6180118283910454207371538060777430000000000000000000000000000000),
  (15519156909606145670226859801728700000000000000000000000000000000, 14462663282853908635385561788551890000000000000000000000000000000),
  (36720131615897488107388439732465270000000000000000000000000000000, 29156656527733076244330995243527810000000000000000000000000000000),
  (76396024163183548912652117368545600000000000000000000000000000000, 51459757637966037085974878525993930000000000000000000000000000000),
  (141808678078403192336038793648606600000000000000000000000000000000, 80140378207769598313156877753259530000000000000000000000000000000),
  (237206856546656404145817401346924300000000000000000000000000000000, 110293333809892837993081179353755600000000000000000000000000000000),
  (360199079531470575708643699798748100000000000000000000000000000000, 133853304560955510099174504949237500000000000000000000000000000000),
  (500000000000000000000000000000000000000000000000000000000000000000, 142836362345894303238152869634230800000000000000000000000000000000),
  (639800920468529424291356300201252000000000000000000000000000000000, 133853304560955510099174504949237500000000000000000000000000000000),
  (762793143453343595854182598653075600000000000000000000000000000000, 110293333809892837993081179353755600000000000000000000000000000000),
  (858191321921596807663961206351393400000000000000000000000000000000, 80140378207769598313156877753259530000000000000000000000000000000),
  (923603975836816451087347882631454400000000000000000000000000000000, 51459757637966037085974878525993930000000000000000000000000000000),
  (963279868384102511892611560267534600000000000000000000000000000000, 29156656527733076244330995243527810000000000000000000000000000000),
  (984480843090393854329773140198271400000000000000000000000000000000, 14462663282853908635385561788551890000000000000000000000000000000),
  (994351497513383461219181544595776800000000000000000000000000000000, 6180118283910454207371538060777430000000000000000000000000000000),
  (998278529309820995692383315043815600000000000000000000000000000000, 2217807002123405634806379765729588000000000000000000000000000000),
  (999576289985342123347749191919445600000000000000000000000000000000, 645272523301183984325269015193379800000000000000000000000000000),
  (999919469240471163018835919685381300000000000000000000000000000000, 145515435076550842492409341222465000000000000000000000000000000),
  (999988806813220550467039120131090600000000000000000000000000000000, 24071559447207357912032611975649200000000000000000000000000000),
  (999998934107944293159059404647051100000000000000000000000000000000, 2734418927721377983675554017083935000000000000000000000000000),
  (999999935673302766844646692583466900000000000000000000000000000000, 197178811377111577624235350518834400000000000000000000000000),
  (999999997758435630958447109477126500000000000000000000000000000000, 8219421312260755368757308131251412000000000000000000000000),
  (999999999959650086181291911605668000000000000000000000000000000000, 177135703682742788701975670042780400000000000000000000000),
  (999999999999671602170375274649564300000000000000000000000000000000, 1726963549852481525008395189956416000000000000000000000)]

/-- n = 34. quadrature_lib.cpp:5658-5691. -/
def b34 : List (Nat × Nat) := [
  (157494193151989042729594436447057400000000000000000000, 830519644101784564294485828324239800000000000000000000),
  (19791109126779568857536585591292790000000000000000000000, 87463626316212970686949595715358570000000000000000000000),
  (1137962003892620848849546115263857000000000000000000000000, 4216761703114634095025245022983428000000000000000000000000),
  (34045445044691945678512875720390240000000000000000000000000, 105857086955218163126559324098932900000000000000000000000000),
  (590316108208705601665856927122563500000000000000000000000000, 1541712020997352914423721939042263000000000000000000000000000),
  (6493937812339521796640508751254825000000000000000000000000000, 14266498845955640640417638164799330000000000000000000000000000),
  (48904982003236221350233814611984800000000000000000000000000000, 90559643860664236519048037816639670000000000000000000000000000),
  (268766460018026751137456477880550000000000000000000000000000000, 420643865607475406609879497853522200000000000000000000000000000),
  (1137228966629360441421697045889667000000000000000000000000000000, 1509485956591128457250285438152229000000000000000000000000000000),
  (3873692518983151076335926102278064000000000000000000000000000000, 4377062421128657400493043033147520000000000000000000000000000000),
  (11015656692793256561138214669789510000000000000000000000000000000, 10630846546704046542336876170117660000000000000000000000000000000),
  (26916624376130248313736795730419980000000000000000000000000000000, 22217424766052249565992403006554730000000000000000000000000000000),
  (57763250073110318224033504236250660000000000000000000000000000000, 40688804094981093557506099385893020000000000000000000000000000000),
  (110597787172386127970222408741229200000000000000000000000000000000, 65968765955356529163988283040973650000000000000000000000000000000),
  (190999847876572874446647487171601900000000000000000000000000000000, 95025798360025420059134823833389280000000000000000000000000000000),
  (299811332903020090921557942274198400000000000000000000000000000000, 121508347529494416537269894294549100000000000000000000000000000000),
  (430509251031514338172452317159332000000000000000000000000000000000, 137546342487188561786232546065635500000000000000000000000000000000),
  (569490748968485661827547682840668000000000000000000000000000000000, 137546342487188561786232546065635500000000000000000000000000000000),
  (700188667096979909078442057725801600000000000000000000000000000000, 121508347529494416537269894294549100000000000000000000000000000000),
  (809000152123427125553352512828398200000000000000000000000000000000, 95025798360025420059134823833389280000000000000000000000000000000),
  (889402212827613872029777591258770900000000000000000000000000000000, 65968765955356529163988283040973650000000000000000000000000000000),
  (942236749926889681775966495763749400000000000000000000000000000000, 40688804094981093557506099385893020000000000000000000000000000000),
  (973083375623869751686263204269579900000000000000000000000000000000, 22217424766052249565992403006554730000000000000000000000000000000),
  (988984343307206743438861785330210500000000000000000000000000000000, 10630846546704046542336876170117660000000000000000000000000000000),
  (996126307481016848923664073897721900000000000000000000000000000000, 4377062421128657400493043033147519000000000000000000000000000000),
  (998862771033370639558578302954110400000000000000000000000000000000, 1509485956591128457250285438152229000000000000000000000000000000),
  (999731233539981973248862543522119300000000000000000000000000000000, 420643865607475406609879497853522000000000000000000000000000000),
  (999951095017996763778649766185388100000000000000000000000000000000, 90559643860664236519048037816639670000000000000000000000000000),
  (999993506062187660478203359491248600000000000000000000000000000000, 14266498845955640640417638164799330000000000000000000000000000),
  (999999409683891791294398334143072900000000000000000000000000000000, 1541712020997352914423721939042263000000000000000000000000000),
  (999999965954554955308054321487124200000000000000000000000000000000, 105857086955218163126559324098932900000000000000000000000000),
  (999999998862037996107379151150453900000000000000000000000000000000, 4216761703114634095025245022983440000000000000000000000000),
  (999999999980208890873220431142463400000000000000000000000000000000, 87463626316212970686949595715358850000000000000000000000),
  (999999999999842505806848010957270300000000000000000000000000000000, 830519644101784564294485828324239800000000000000000000)]

/-- n = 35. quadrature_lib.cpp:5692-5726. -/
def b35 : List (Nat × Nat) := [
  (75835324951696562993722403737559160000000000000000000, 400958644463668007987002318116470300000000000000000000),
  (9736695375001145880171667041312536000000000000000000000, 43303617737250648806513929102529960000000000000000000000),
  (578669338504774878300476029724331400000000000000000000000, 2165851072720074350090103072243795000000000000000000000000),
  (18022753641922738379142718595969590000000000000000000000000, 56805252541512204541049538534781410000000000000000000000000),
  (326551149677884660485082545599324800000000000000000000000000, 867536373853500644863020702778021700000000000000000000000000),
  (3758721969319942920950541989599075000000000000000000000000000, 8427667514155723432498036063644768000000000000000000000000000),
  (29601560245793885014196959681649390000000000000000000000000000, 56116798604356790194340198898106120000000000000000000000000000),
  (169809798024709202019812307355624100000000000000000000000000000, 272839506230833993721359862373816400000000000000000000000000000),
  (747984878237773949437222309655374200000000000000000000000000000, 1021762666853515957754589122969030000000000000000000000000000000),
  (2644180097620828454179791600632505000000000000000000000000000000, 3081835802240672327316026088331545000000000000000000000000000000),
  (7780339408880800639677798552163948000000000000000000000000000000, 7763587166316544759686620542961070000000000000000000000000000000),
  (19623084647139788477862726714457500000000000000000000000000000000, 16800318159505678236073108166318850000000000000000000000000000000),
  (43399595209530986503144380741720360000000000000000000000000000000, 31860799202890029222241653702540970000000000000000000000000000000),
  (85598565545287476585146507392623230000000000000000000000000000000, 53607520471253724535684691804165430000000000000000000000000000000),
  (152358379074359260847880088685360500000000000000000000000000000000, 80477953472206924365938690745624550000000000000000000000000000000),
  (246757558357060735367271856776570600000000000000000000000000000000, 107869563833304817159795776355227900000000000000000000000000000000),
  (365947556854509986289374358306078800000000000000000000000000000000, 128818910671847144474154195133142400000000000000000000000000000000),
  (500000000000000000000000000000000000000000000000000000000000000000, 136718876060099116678736758533074700000000000000000000000000000000),
  (634052443145490013710625641693921200000000000000000000000000000000, 128818910671847144474154195133142400000000000000000000000000000000),
  (753242441642939264632728143223429400000000000000000000000000000000, 107869563833304817159795776355227900000000000000000000000000000000),
  (847641620925640739152119911314639500000000000000000000000000000000, 80477953472206924365938690745624550000000000000000000000000000000),
  (914401434454712523414853492607376800000000000000000000000000000000, 53607520471253724535684691804165430000000000000000000000000000000),
  (956600404790469013496855619258279600000000000000000000000000000000, 31860799202890029222241653702540970000000000000000000000000000000),
  (980376915352860211522137273285542500000000000000000000000000000000, 16800318159505678236073108166318850000000000000000000000000000000),
  (992219660591119199360322201447836000000000000000000000000000000000, 7763587166316544759686620542961077000000000000000000000000000000),
  (997355819902379171545820208399367500000000000000000000000000000000, 3081835802240672327316026088331545000000000000000000000000000000),
  (999252015121762226050562777690344600000000000000000000000000000000, 1021762666853515957754589122969030000000000000000000000000000000),
  (999830190201975290797980187692644500000000000000000000000000000000, 272839506230833993721359862373816400000000000000000000000000000),
  (999970398439754206114985803040318400000000000000000000000000000000, 56116798604356790194340198898106120000000000000000000000000000),
  (999996241278030680057079049458010400000000000000000000000000000000, 8427667514155723432498036063644768000000000000000000000000000),
  (999999673448850322115339514917454300000000000000000000000000000000, 867536373853500644863020702778021700000000000000000000000000),
  (999999981977246358077261620857281300000000000000000000000000000000, 56805252541512204541049538534781410000000000000000000000000),
  (999999999421330661495225121699523900000000000000000000000000000000, 2165851072720074350090103072243802000000000000000000000000),
  (999999999990263304624998854119828300000000000000000000000000000000, 43303617737250648806513929102529960000000000000000000000),
  (999999999999924164675048303437006200000000000000000000000000000000, 400958644463668007987002318116470300000000000000000000)]

/-- n = 36. quadrature_lib.cpp:5727-5762. -/
def b36 : List (Nat × Nat) := [
  (36656980543812970236165271860550670000000000000000000, 194299671133672484307349499801760900000000000000000000),
  (4804309428052504795192854013818217000000000000000000000, 21496622575963324324009955292326510000000000000000000000),
  (294752994806109408560317711297101500000000000000000000000, 1113791299409692234798862886594156000000000000000000000000),
  (9543525667500485687156996021375030000000000000000000000000, 30473095132692377793218576284109480000000000000000000000000),
  (180454929247349407026302014184935300000000000000000000000000, 487300349692713170491633219909401000000000000000000000000000),
  (2170800366568103717374133145618320000000000000000000000000000, 4963271768356542459573408758832656000000000000000000000000000),
  (17861560149181354774884755383289260000000000000000000000000000, 34632205207718690889957463961932030000000000000000000000000000),
  (106880781859639044826674101225230000000000000000000000000000000, 176121278812277511633892268975119600000000000000000000000000000),
  (489886361559596622317854265616165400000000000000000000000000000, 687977820512945699929423032489162200000000000000000000000000000),
  (1796778736945553899970838028028366000000000000000000000000000000, 2157672236214724256178167102960434000000000000000000000000000000),
  (5469169422510238501662585070090884000000000000000000000000000000, 5635191871641034047581342600127403000000000000000000000000000000),
  (14232834226807193928703525425477690000000000000000000000000000000, 12616027189008579367659051844379870000000000000000000000000000000),
  (32420060811367117031023417719846640000000000000000000000000000000, 24736632291935213920416309170481860000000000000000000000000000000),
  (65799327728427457080544202838415990000000000000000000000000000000, 43084445852992758643095837839964870000000000000000000000000000000),
  (120530767208552901009527299999751000000000000000000000000000000000, 67169243323332287005023941900114270000000000000000000000000000000),
  (201068630401514374792157977241238000000000000000000000000000000000, 93951565011601714095555879987845240000000000000000000000000000000),
  (307459020001548686429180353660970600000000000000000000000000000000, 117769571822785260835342032783880100000000000000000000000000000000),
  (433380313775590500005555922973853900000000000000000000000000000000, 131975436915260082321897074137084500000000000000000000000000000000),
  (566619686224409499994444077026146100000000000000000000000000000000, 131975436915260082321897074137084500000000000000000000000000000000),
  (692540979998451313570819646339029300000000000000000000000000000000, 117769571822785260835342032783880100000000000000000000000000000000),
  (798931369598485625207842022758762000000000000000000000000000000000, 93951565011601714095555879987845240000000000000000000000000000000),
  (879469232791447098990472700000249100000000000000000000000000000000, 67169243323332287005023941900114270000000000000000000000000000000),
  (934200672271572542919455797161584000000000000000000000000000000000, 43084445852992758643095837839964890000000000000000000000000000000),
  (967579939188632882968976582280153300000000000000000000000000000000, 24736632291935213920416309170481860000000000000000000000000000000),
  (985767165773192806071296474574522400000000000000000000000000000000, 12616027189008579367659051844379870000000000000000000000000000000),
  (994530830577489761498337414929909100000000000000000000000000000000, 5635191871641034047581342600127403000000000000000000000000000000),
  (998203221263054446100029161971971700000000000000000000000000000000, 2157672236214724256178167102960434000000000000000000000000000000),
  (999510113638440403377682145734383800000000000000000000000000000000, 687977820512945699929423032489162200000000000000000000000000000),
  (999893119218140360955173325898774700000000000000000000000000000000, 176121278812277511633892268975119600000000000000000000000000000),
  (999982138439850818645225115244616700000000000000000000000000000000, 34632205207718690889957463961932090000000000000000000000000000),
  (999997829199633431896282625866854400000000000000000000000000000000, 4963271768356542459573408758832656000000000000000000000000000),
  (999999819545070752650592973697985900000000000000000000000000000000, 487300349692713170491633219909401000000000000000000000000000),
  (999999990456474332499514312843004000000000000000000000000000000000, 30473095132692377793218576284109480000000000000000000000000),
  (999999999705247005193890591439682300000000000000000000000000000000, 1113791299409692234798862886594156000000000000000000000000),
  (999999999995195690571947495204807000000000000000000000000000000000, 21496622575963324324009955292326500000000000000000000000),
  (999999999999963343019456187029763900000000000000000000000000000000, 194299671133672484307349499801760900000000000000000000)]

/-- n = 37. quadrature_lib.cpp:5763-5799. -/
def b37 : List (Nat × Nat) := [
  (17785229842464000826259120425586060000000000000000000, 94495457014208673356739292528358160000000000000000000),
  (2377354318091952615331701293795156000000000000000000000, 10698929047131933549226128578779270000000000000000000000),
  (150386487497362671419141137302834000000000000000000000000, 573477332881203792225311169234260900000000000000000000000),
  (5055338111863779051421649875583291000000000000000000000000, 16343686182449522747142041070258090000000000000000000000000),
  (99629740867567282860146767155251100000000000000000000000000, 273276908299707678747385250425899800000000000000000000000000),
  (1251161647105266577733309322090508000000000000000000000000000, 2914660760124733582338944934851702000000000000000000000000000),
  (10745786954501412396257495038076800000000000000000000000000000, 21290674212363832910024340680442780000000000000000000000000000),
  (67027426502755830242711264196425570000000000000000000000000000, 113166080193690378916328214989556800000000000000000000000000000),
  (319532428126870246511302024681947200000000000000000000000000000, 460876519690403328711301530884123000000000000000000000000000000),
  (1215607025485352288153426205831440000000000000000000000000000000, 1502457902029002541258681761539791000000000000000000000000000000),
  (3826932864710951202863244446827835000000000000000000000000000000, 4066713737925611652698015018559303000000000000000000000000000000),
  (10273221934084415382057241900977710000000000000000000000000000000, 9413419112827959657715538493939097000000000000000000000000000000),
  (24089286374706166132261940839507660000000000000000000000000000000, 19060519773161593325133217314742840000000000000000000000000000000),
  (50269038140113656081210648775351190000000000000000000000000000000, 34297764136253323051475068946012520000000000000000000000000000000),
  (94651177639506680846230556529669130000000000000000000000000000000, 55365804699643535849904899624260290000000000000000000000000000000),
  (162386813553214299333251076101657800000000000000000000000000000000, 80503596544080087441933444891067370000000000000000000000000000000),
  (255614829610171096164369043585358700000000000000000000000000000000, 105445154371923860745826901422868300000000000000000000000000000000),
  (371198930503927438585100883755206100000000000000000000000000000000, 124166665105290854048058277145598400000000000000000000000000000000),
  (500000000000000000000000000000000000000000000000000000000000000000, 131158732954284699738649066749475200000000000000000000000000000000),
  (628801069496072561414899116244793900000000000000000000000000000000, 124166665105290854048058277145598400000000000000000000000000000000),
  (744385170389828903835630956414641300000000000000000000000000000000, 105445154371923860745826901422868300000000000000000000000000000000),
  (837613186446785700666748923898342100000000000000000000000000000000, 80503596544080087441933444891067370000000000000000000000000000000),
  (905348822360493319153769443470331000000000000000000000000000000000, 55365804699643535849904899624260290000000000000000000000000000000),
  (949730961859886343918789351224648700000000000000000000000000000000, 34297764136253323051475068946012520000000000000000000000000000000),
  (975910713625293833867738059160492200000000000000000000000000000000, 19060519773161593325133217314742840000000000000000000000000000000),
  (989726778065915584617942758099022300000000000000000000000000000000, 9413419112827959657715538493939097000000000000000000000000000000),
  (996173067135289048797136755553172200000000000000000000000000000000, 4066713737925611652698015018559303000000000000000000000000000000),
  (998784392974514647711846573794168600000000000000000000000000000000, 1502457902029002541258681761539791000000000000000000000000000000),
  (999680467571873129753488697975318000000000000000000000000000000000, 460876519690403328711301530884123000000000000000000000000000000),
  (999932972573497244169757288735803700000000000000000000000000000000, 113166080193690378916328214989556800000000000000000000000000000),
  (999989254213045498587603742504961900000000000000000000000000000000, 21290674212363832910024340680442740000000000000000000000000000),
  (999998748838352894733422266690678000000000000000000000000000000000, 2914660760124733582338944934851702000000000000000000000000000),
  (999999900370259132432717139853232800000000000000000000000000000000, 273276908299707678747385250425899800000000000000000000000000),
  (999999994944661888136220948578350000000000000000000000000000000000, 16343686182449522747142041070258090000000000000000000000000),
  (999999999849613512502637328580858800000000000000000000000000000000, 573477332881203792225311169234259200000000000000000000000),
  (999999999997622645681908047384668200000000000000000000000000000000, 10698929047131933549226128578779270000000000000000000000),
  (999999999999982214770157535999173800000000000000000000000000000000, 94495457014208673356739292528358190000000000000000000)]

/-- n = 38. quadrature_lib.cpp:5800-5837. -/
def b38 : List (Nat × Nat) := [
  (8660106246388609036508079635820827000000000000000000, 46117219480503162116219408272347690000000000000000000),
  (1179689012693423557898038669800668000000000000000000000, 5338383278473928785171204437424987000000000000000000000),
  (76856232558701158335476734365081150000000000000000000000, 295648197270604919485986614607587300000000000000000000000),
  (2678986327488498676742631678600262000000000000000000000000, 8764564684691426112726893566768795000000000000000000000000),
  (54961676974604637125288914964825100000000000000000000000000, 153028923367443277833999634575508000000000000000000000000000),
  (719752950101466925399245406018654400000000000000000000000000, 1707067848190612452828825784002014000000000000000000000000000),
  (6446728273520390512161287489919511000000000000000000000000000, 13040970807771975648796875469464760000000000000000000000000000),
  (41887768388206137887528600893178300000000000000000000000000000, 72394610690008256372205161639103660000000000000000000000000000),
  (207591761634401437224911685441805000000000000000000000000000000, 307226868481311267664571329868034500000000000000000000000000000),
  (818918010481634610511525756116322400000000000000000000000000000, 1040736239386782787547665889176755000000000000000000000000000000),
  (2665921924380548038034767133459397000000000000000000000000000000, 2918610133377063001321468883396325000000000000000000000000000000),
  (7380779755806792084450277503734783000000000000000000000000000000, 6981908394522188829179338705830808000000000000000000000000000000),
  (17809928565427269747372835542593170000000000000000000000000000000, 14586588045477910826538926428785190000000000000000000000000000000),
  (38188684871573978659332677780585980000000000000000000000000000000, 27075105351687496224425476364798020000000000000000000000000000000),
  (73838315818285695328587975435807750000000000000000000000000000000, 45148256652958071079341069272808830000000000000000000000000000000),
  (130110289688739013511202865740079300000000000000000000000000000000, 68020730556428336753801834846125720000000000000000000000000000000),
  (210515492748577091085656951148175500000000000000000000000000000000, 92725476840106476515600463054862030000000000000000000000000000000),
  (314501930380886560374191903501614900000000000000000000000000000000, 114227168772620239927286576400338000000000000000000000000000000000),
  (435999460285578530163735717648789200000000000000000000000000000000, 126880887401087402039555479801315600000000000000000000000000000000),
  (564000539714421469836264282351210900000000000000000000000000000000, 126880887401087402039555479801315600000000000000000000000000000000),
  (685498069619113439625808096498385100000000000000000000000000000000, 114227168772620239927286576400338000000000000000000000000000000000),
  (789484507251422908914343048851824500000000000000000000000000000000, 92725476840106476515600463054861990000000000000000000000000000000),
  (869889710311260986488797134259920700000000000000000000000000000000, 68020730556428336753801834846125730000000000000000000000000000000),
  (926161684181714304671412024564192200000000000000000000000000000000, 45148256652958071079341069272808830000000000000000000000000000000),
  (961811315128426021340667322219414000000000000000000000000000000000, 27075105351687496224425476364798020000000000000000000000000000000),
  (982190071434572730252627164457406800000000000000000000000000000000, 14586588045477910826538926428785190000000000000000000000000000000),
  (992619220244193207915549722496265200000000000000000000000000000000, 6981908394522188829179338705830812000000000000000000000000000000),
  (997334078075619451961965232866540600000000000000000000000000000000, 2918610133377063001321468883396325000000000000000000000000000000),
  (999181081989518365389488474243883700000000000000000000000000000000, 1040736239386782787547665889176755000000000000000000000000000000),
  (999792408238365598562775088314558200000000000000000000000000000000, 307226868481311267664571329868034500000000000000000000000000000),
  (999958112231611793862112471399106900000000000000000000000000000000, 72394610690008256372205161639103660000000000000000000000000000),
  (999993553271726479609487838712510100000000000000000000000000000000, 13040970807771975648796875469464760000000000000000000000000000),
  (999999280247049898533074600754593900000000000000000000000000000000, 1707067848190612452828825784002014000000000000000000000000000),
  (999999945038323025395362874711085100000000000000000000000000000000, 153028923367443277833999634575508000000000000000000000000000),
  (999999997321013672511501323257368200000000000000000000000000000000, 8764564684691426112726893566768795000000000000000000000000),
  (999999999923143767441298841664523200000000000000000000000000000000, 295648197270604919485986614607587300000000000000000000000),
  (999999999998820310987306576442102000000000000000000000000000000000, 5338383278473928785171204437424988000000000000000000000),
  (999999999999991339893753611390963500000000000000000000000000000000, 46117219480503162116219408272347690000000000000000000)]

/-- n = 39. quadrature_lib.cpp:5838-5876. -/
def b39 : List (Nat × Nat) := [
  (4231502766296874067980730705976778000000000000000000, 22582845024733612866508311494291910000000000000000000),
  (586976050384528994536620619070819300000000000000000000, 2670266357915416009106155037373709000000000000000000000),
  (39342785523735757909545169321234840000000000000000000000, 152611828021374440172562803950409000000000000000000000000),
  (1420340311420235909545978128871870000000000000000000000000, 4699970742105472762727440493123289000000000000000000000000),
  (30298850766001996717050560066186750000000000000000000000000, 85579680564758106824266403135503590000000000000000000000000),
  (413322552545801029821892648145339700000000000000000000000000, 997320957967903047797084697295986100000000000000000000000000),
  (3857344628332844595477061339518174000000000000000000000000000, 7960257765003622076062293091518997000000000000000000000000000),
  (26089638575175039451232764076393640000000000000000000000000000, 46117427564942870760025186712936720000000000000000000000000000),
  (134350343551433067303131567351406300000000000000000000000000000, 203833043984931459484898059086912200000000000000000000000000000),
  (549398780032542410571694453020387000000000000000000000000000000, 717255986131244602828698832338166900000000000000000000000000000),
  (1849115481445205570092129234003289000000000000000000000000000000, 2083510906630976490229710775051042000000000000000000000000000000),
  (5278973244996698816734135753226942000000000000000000000000000000, 5149249403337561884906232351714686000000000000000000000000000000),
  (13105165657148432021166801136292020000000000000000000000000000000, 11092762973209244171763674852028610000000000000000000000000000000),
  (28860688744530113885523752559512920000000000000000000000000000000, 21214521127872254860925964423407790000000000000000000000000000000),
  (57258065210475631221778071881341530000000000000000000000000000000, 36473362368908903240755523328998880000000000000000000000000000000),
  (103511612351378334772668707427725800000000000000000000000000000000, 56783845319344323443710356455227120000000000000000000000000000000),
  (171912805993759653357953489561839900000000000000000000000000000000, 80282488328880381469878662779200090000000000000000000000000000000),
  (263848362684096593504439360618714800000000000000000000000000000000, 103047790204393099031332968088373800000000000000000000000000000000),
  (376016568329008963103909181112992800000000000000000000000000000000, 119855996353632622114814889917569400000000000000000000000000000000),
  (500000000000000000000000000000000000000000000000000000000000000000, 126080437084861117491180717568245300000000000000000000000000000000),
  (623983431670991036896090818887007100000000000000000000000000000000, 119855996353632622114814889917569400000000000000000000000000000000),
  (736151637315903406495560639381285100000000000000000000000000000000, 103047790204393099031332968088373800000000000000000000000000000000),
  (828087194006240346642046510438160000000000000000000000000000000000, 80282488328880381469878662779200060000000000000000000000000000000),
  (896488387648621665227331292572274100000000000000000000000000000000, 56783845319344323443710356455227120000000000000000000000000000000),
  (942741934789524368778221928118658500000000000000000000000000000000, 36473362368908903240755523328998880000000000000000000000000000000),
  (971139311255469886114476247440487200000000000000000000000000000000, 21214521127872254860925964423407790000000000000000000000000000000),
  (986894834342851567978833198863708000000000000000000000000000000000, 11092762973209244171763674852028610000000000000000000000000000000),
  (994721026755003301183265864246773100000000000000000000000000000000, 5149249403337561884906232351714686000000000000000000000000000000),
  (998150884518554794429907870765996800000000000000000000000000000000, 2083510906630976490229710775051042000000000000000000000000000000),
  (999450601219967457589428305546979600000000000000000000000000000000, 717255986131244602828698832338166900000000000000000000000000000),
  (999865649656448566932696868432648600000000000000000000000000000000, 203833043984931459484898059086912200000000000000000000000000000),
  (999973910361424824960548767235923500000000000000000000000000000000, 46117427564942870760025186712936720000000000000000000000000000),
  (999996142655371667155404522938660400000000000000000000000000000000, 7960257765003622076062293091518997000000000000000000000000000),
  (999999586677447454198970178107351900000000000000000000000000000000, 997320957967903047797084697295986100000000000000000000000000),
  (999999969701149233998003282949439900000000000000000000000000000000, 85579680564758106824266403135503590000000000000000000000000),
  (999999998579659688579764090454021900000000000000000000000000000000, 4699970742105472762727440493123290000000000000000000000000),
  (999999999960657214476264242090454800000000000000000000000000000000, 152611828021374440172562803950408500000000000000000000000),
  (999999999999413023949615471005463300000000000000000000000000000000, 2670266357915416009106155037373709000000000000000000000),
  (999999999999995768497233703125932100000000000000000000000000000000, 22582845024733612866508311494291910000000000000000000)]

/-- n = 40. quadrature_lib.cpp:5877-5916. -/
def b40 : List (Nat × Nat) := [
  (2074548440727822387750299539617161000000000000000000, 11094568691829712876787098827125060000000000000000000),
  (292834568282605210300086501018336000000000000000000000, 1338910368305975929170647665734357000000000000000000000),
  (20172616189095043048484338374938480000000000000000000000, 78878911670924212822110702222905140000000000000000000000),
  (753418573752831983001578691004332500000000000000000000000, 2520452072232176045737394547489030000000000000000000000000),
  (16692782730453431464259267098349740000000000000000000000000, 47802639369566727837028952771744600000000000000000000000000),
  (236966032549442024359935461567313100000000000000000000000000, 581318786901463289424729848688717700000000000000000000000000),
  (2302228329925591382221885762877274000000000000000000000000000, 4843091740186194009656614005014781000000000000000000000000000),
  (16197872743320438163436985745259170000000000000000000000000000, 29259962579413677077629262711586780000000000000000000000000000),
  (86628002807778717569533532673069360000000000000000000000000000, 134618666091036163527327659643130900000000000000000000000000000),
  (367100745118631803516675100096945400000000000000000000000000000, 491894501323349713865649824030112300000000000000000000000000000),
  (1277170130677737383568394727559166000000000000000000000000000000, 1479718690112098561948195320152538000000000000000000000000000000),
  (3759300736047365972644279734950215000000000000000000000000000000, 3777181475118273422398286021980744000000000000000000000000000000),
  (9599629304760762113817003620766989000000000000000000000000000000, 8386480252829340482257260393400180000000000000000000000000000000),
  (21705045794271638758226942853328950000000000000000000000000000000, 16510785623548762791907106759667640000000000000000000000000000000),
  (44158136825027767121217967874767140000000000000000000000000000000, 29223588950661613936477158214810850000000000000000000000000000000),
  (81825473817039891513846082354953400000000000000000000000000000000, 46909745433992168754535238805547850000000000000000000000000000000),
  (139327722230198537993147848168325700000000000000000000000000000000, 68581399766336637655498467263526180000000000000000000000000000000),
  (219388210287284004839805943700449100000000000000000000000000000000, 91393891399439810305891752289659600000000000000000000000000000000),
  (321009496263396320347210306077797700000000000000000000000000000000, 110873508922276339230548806502244600000000000000000000000000000000),
  (438399534713292682500679202344365400000000000000000000000000000000, 122202451541843709239942139108265700000000000000000000000000000000),
  (561600465286707317499320797655634600000000000000000000000000000000, 122202451541843709239942139108265700000000000000000000000000000000),
  (678990503736603679652789693922202300000000000000000000000000000000, 110873508922276339230548806502244600000000000000000000000000000000),
  (780611789712715995160194056299551000000000000000000000000000000000, 91393891399439810305891752289659600000000000000000000000000000000),
  (860672277769801462006852151831674200000000000000000000000000000000, 68581399766336637655498467263526180000000000000000000000000000000),
  (918174526182960108486153917645046600000000000000000000000000000000, 46909745433992168754535238805547840000000000000000000000000000000),
  (955841863174972232878782032125232800000000000000000000000000000000, 29223588950661613936477158214810850000000000000000000000000000000),
  (978294954205728361241773057146671000000000000000000000000000000000, 16510785623548762791907106759667640000000000000000000000000000000),
  (990400370695239237886182996379233100000000000000000000000000000000, 8386480252829340482257260393400180000000000000000000000000000000),
  (996240699263952634027355720265049800000000000000000000000000000000, 3777181475118273422398286021980744000000000000000000000000000000),
  (998722829869322262616431605272441000000000000000000000000000000000, 1479718690112098561948195320152538000000000000000000000000000000),
  (999632899254881368196483324899903000000000000000000000000000000000, 491894501323349713865649824030112300000000000000000000000000000),
  (999913371997192221282430466467326900000000000000000000000000000000, 134618666091036163527327659643130900000000000000000000000000000),
  (999983802127256679561836563014254700000000000000000000000000000000, 29259962579413677077629262711586780000000000000000000000000000),
  (999997697771670074408617778114237100000000000000000000000000000000, 4843091740186194009656614005014781000000000000000000000000000),
  (999999763033967450557975640064538400000000000000000000000000000000, 581318786901463289424729848688717700000000000000000000000000),
  (999999983307217269546568535740733000000000000000000000000000000000, 47802639369566727837028952771744460000000000000000000000000),
  (999999999246581426247168016998421400000000000000000000000000000000, 2520452072232176045737394547489030000000000000000000000000),
  (999999999979827383810904956951515700000000000000000000000000000000, 78878911670924212822110702222905140000000000000000000000),
  (999999999999707165431717394789700000000000000000000000000000000000, 1338910368305975929170647665734357000000000000000000000),
  (999999999999997925451559272177612300000000000000000000000000000000, 11094568691829712876787098827125060000000000000000000)]

/-- n = 41. quadrature_lib.cpp:5917-5957. -/
def b41 : List (Nat × Nat) := [
  (1020382096623733011446012909971294000000000000000000, 5467816284283799224689566300068722000000000000000000),
  (146468613604603829031283060550349500000000000000000000, 672942391444761698753095130730197900000000000000000000),
  (10360130939123702244819405450044730000000000000000000000, 40822321690979446730925837636148900000000000000000000000),
  (399871523273655966642241955058687700000000000000000000000, 1351795541533039973333933136495124000000000000000000000000),
  (9191912280191674501999521446314008000000000000000000000000, 26672909383168567284993436070272510000000000000000000000000),
  (135652218799305935890038228507658200000000000000000000000000, 338110276928593788040894872054213200000000000000000000000000),
  (1370816839439975152586235626998254000000000000000000000000000, 2937477009864955693610673423669941000000000000000000000000000),
  (10025781808127247430708132386284260000000000000000000000000000, 18493146632925382692130628857998810000000000000000000000000000),
  (55657722418001392881854267219697790000000000000000000000000000, 88516502078911107155018540095460670000000000000000000000000000),
  (244333381165425057133605142868899100000000000000000000000000000, 335737885011942969885242025210004400000000000000000000000000000),
  (878510049625918227888836484387661700000000000000000000000000000, 1045668349642147913078768409831950000000000000000000000000000000),
  (2665785114223626520797539612582237000000000000000000000000000000, 2756357933753506088950688758344753000000000000000000000000000000),
  (7001148813812656375471816774199534000000000000000000000000000000, 6305490691521776989720985127449696000000000000000000000000000000),
  (16248388302174939109325657216663460000000000000000000000000000000, 12770786739011019271950725167738950000000000000000000000000000000),
  (33882921364878224707849139887575330000000000000000000000000000000, 23243580613080319168684095395841110000000000000000000000000000000),
  (64307865617164938794158338820094270000000000000000000000000000000, 38399712572811705543396004210790720000000000000000000000000000000),
  (112150575449557202897555834561293200000000000000000000000000000000, 57906693984653585133410034400487050000000000000000000000000000000),
  (180959030605590025703613191456261600000000000000000000000000000000, 79867124289289208754900471056802980000000000000000000000000000000),
  (271519660732244136858823188777846600000000000000000000000000000000, 100696201204069665725725302496454900000000000000000000000000000000),
  (380453425761931994060760472395493700000000000000000000000000000000, 115851447959508067522498210708615600000000000000000000000000000000),
  (500000000000000000000000000000000000000000000000000000000000000000, 121421768950885536556309841897820700000000000000000000000000000000),
  (619546574238068005939239527604506300000000000000000000000000000000, 115851447959508067522498210708615600000000000000000000000000000000),
  (728480339267755863141176811222153400000000000000000000000000000000, 100696201204069665725725302496454900000000000000000000000000000000),
  (819040969394409974296386808543738300000000000000000000000000000000, 79867124289289208754900471056802980000000000000000000000000000000),
  (887849424550442797102444165438706800000000000000000000000000000000, 57906693984653585133410034400487050000000000000000000000000000000),
  (935692134382835061205841661179905700000000000000000000000000000000, 38399712572811705543396004210790720000000000000000000000000000000),
  (966117078635121775292150860112424700000000000000000000000000000000, 23243580613080319168684095395841110000000000000000000000000000000),
  (983751611697825060890674342783336600000000000000000000000000000000, 12770786739011019271950725167738950000000000000000000000000000000),
  (992998851186187343624528183225800400000000000000000000000000000000, 6305490691521776989720985127449696000000000000000000000000000000),
  (997334214885776373479202460387417800000000000000000000000000000000, 2756357933753506088950688758344753000000000000000000000000000000),
  (999121489950374081772111163515612400000000000000000000000000000000, 1045668349642147913078768409831950000000000000000000000000000000),
  (999755666618834574942866394857131100000000000000000000000000000000, 335737885011942969885242025210004400000000000000000000000000000),
  (999944342277581998607118145732780200000000000000000000000000000000, 88516502078911107155018540095460670000000000000000000000000000),
  (999989974218191872752569291867613700000000000000000000000000000000, 18493146632925382692130628857998820000000000000000000000000000),
  (999998629183160560024847413764373000000000000000000000000000000000, 2937477009864955693610673423669941000000000000000000000000000),
  (999999864347781200694064109961771500000000000000000000000000000000, 338110276928593788040894872054213200000000000000000000000000),
  (999999990808087719808325498000478500000000000000000000000000000000, 26672909383168567284993436070272510000000000000000000000000),
  (999999999600128476726344033357758000000000000000000000000000000000, 1351795541533039973333933136495124000000000000000000000000),
  (999999999989639869060876297755180600000000000000000000000000000000, 40822321690979446730925837636148900000000000000000000000),
  (999999999999853531386395396170968800000000000000000000000000000000, 672942391444761698753095130730197900000000000000000000),
  (999999999999998979617903376266988500000000000000000000000000000000, 5467816284283799224689566300068724000000000000000000)]

/-- n = 42. quadrature_lib.cpp:5958-5999. -/
def b42 : List (Nat × Nat) := [
  (503463266443442539018086754450462200000000000000000, 2703006134455839237927588201859534000000000000000000),
  (73444522949941978678198047610085780000000000000000000, 339009425830254650216346050411348300000000000000000000),
  (5329279125969270456371676975240902000000000000000000000, 21154443862670367367637526982739870000000000000000000000),
  (212354373772906109954740439874725400000000000000000000000, 725138098972619930578945440393704600000000000000000000000),
  (5059328177951255777293905509743176000000000000000000000000, 14868783666212923783992466030185550000000000000000000000000),
  (77546261583422617558716834980093120000000000000000000000000, 196260119316458498995782612411735800000000000000000000000000),
  (814402388048721369100556816088300100000000000000000000000000, 1776464691186860208075868997443513000000000000000000000000000),
  (6187401969653530817471814629663479000000000000000000000000000, 11645338693226871125694464431349520000000000000000000000000000),
  (35636593852298946493454281235038330000000000000000000000000000, 57956608697894315922277289062660290000000000000000000000000000),
  (162005453847253330596523915744776200000000000000000000000000000, 228099222112101939418162044722516500000000000000000000000000000),
  (601868284210215708549528077385163200000000000000000000000000000, 735363765714837831776022345523454900000000000000000000000000000),
  (1882556045178626685778676368289232000000000000000000000000000000, 2001344466812934698171954794025678000000000000000000000000000000),
  (5084461988749547067833309197550598000000000000000000000000000000, 4715972270656225825015141924575893000000000000000000000000000000),
  (12110027754803564088762404274706760000000000000000000000000000000, 9821397126239000231357676180568980000000000000000000000000000000),
  (25875470372318367091234740281718870000000000000000000000000000000, 18365074834619443062707813226310780000000000000000000000000000000),
  (50271828250765785266348640548806100000000000000000000000000000000, 31180627887079798092905027716108730000000000000000000000000000000),
  (89718456265141170683726821946104120000000000000000000000000000000, 48398905339789414766565772385707100000000000000000000000000000000),
  (148182417980208975256456937714346200000000000000000000000000000000, 68900517958660060236219818681085340000000000000000000000000000000),
  (227731617220985182262431756530010200000000000000000000000000000000, 89992126653951076138100185030792320000000000000000000000000000000),
  (327041052290479435992169815905445300000000000000000000000000000000, 107699243999368433413751657027603200000000000000000000000000000000),
  (440607822739575063894108239507944900000000000000000000000000000000, 117889736187377127778076932809369000000000000000000000000000000000),
  (559392177260424936105891760492055100000000000000000000000000000000, 117889736187377127778076932809369000000000000000000000000000000000),
  (672958947709520564007830184094554700000000000000000000000000000000, 107699243999368433413751657027603200000000000000000000000000000000),
  (772268382779014817737568243469989800000000000000000000000000000000, 89992126653951076138100185030792320000000000000000000000000000000),
  (851817582019791024743543062285653900000000000000000000000000000000, 68900517958660060236219818681085340000000000000000000000000000000),
  (910281543734858829316273178053895900000000000000000000000000000000, 48398905339789414766565772385707110000000000000000000000000000000),
  (949728171749234214733651359451193900000000000000000000000000000000, 31180627887079798092905027716108730000000000000000000000000000000),
  (974124529627681632908765259718281100000000000000000000000000000000, 18365074834619443062707813226310780000000000000000000000000000000),
  (987889972245196435911237595725293200000000000000000000000000000000, 9821397126239000231357676180568980000000000000000000000000000000),
  (994915538011250452932166690802449300000000000000000000000000000000, 4715972270656225825015141924575894000000000000000000000000000000),
  (998117443954821373314221323631710700000000000000000000000000000000, 2001344466812934698171954794025678000000000000000000000000000000),
  (999398131715789784291450471922614900000000000000000000000000000000, 735363765714837831776022345523454900000000000000000000000000000),
  (999837994546152746669403476084255200000000000000000000000000000000, 228099222112101939418162044722516500000000000000000000000000000),
  (999964363406147701053506545718764900000000000000000000000000000000, 57956608697894315922277289062660290000000000000000000000000000),
  (999993812598030346469182528185370400000000000000000000000000000000, 11645338693226871125694464431349530000000000000000000000000000),
  (999999185597611951278630899443183900000000000000000000000000000000, 1776464691186860208075868997443513000000000000000000000000000),
  (999999922453738416577382441283165000000000000000000000000000000000, 196260119316458498995782612411735800000000000000000000000000),
  (999999994940671822048744222706094500000000000000000000000000000000, 14868783666212923783992466030185550000000000000000000000000),
  (999999999787645626227093890045259500000000000000000000000000000000, 725138098972619930578945440393704600000000000000000000000),
  (999999999994670720874030729543628300000000000000000000000000000000, 21154443862670367367637526982739880000000000000000000000),
  (999999999999926555477050058021321800000000000000000000000000000000, 339009425830254650216346050411348300000000000000000000),
  (999999999999999496536733556557461000000000000000000000000000000000, 2703006134455839237927588201859534000000000000000000)]

/-- n = 43. quadrature_lib.cpp:6000-6042. -/
def b43 : List (Nat × Nat) := [
  (249170321512834155088675775858766400000000000000000, 1340200918640601017784020884084954000000000000000000),
  (36918185733809962839283266649671900000000000000000000, 171171659903431134301351967219103900000000000000000000),
  (2745780357253532734910110336656733000000000000000000000, 10976770272100566585792190766647450000000000000000000000),
  (112842608286462417938583111866774600000000000000000000000, 389074536953455649686303693524430400000000000000000000000),
  (2783699512084675294056891061450944000000000000000000000000, 8281568609476468428811920166882561000000000000000000000000),
  (44272533930561418191252043779926180000000000000000000000000, 113709422682991303092705826876111700000000000000000000000000),
  (482816396913028257082412032471026900000000000000000000000000, 1071369892439308633317643438873791000000000000000000000000000),
  (3807902283148013069271448101276180000000000000000000000000000, 7307535397500503063108939204314393000000000000000000000000000),
  (22741845616136100263240055677002180000000000000000000000000000, 37793004184225815523113837291969850000000000000000000000000000),
  (107022439134162030538110994374194400000000000000000000000000000, 154278539513314491079025281242000800000000000000000000000000000),
  (410729162484892662496890261269548700000000000000000000000000000, 514709705209590672634192030854761300000000000000000000000000000),
  (1324085090747177177712220917291790000000000000000000000000000000, 1446074867560551480063050173211441000000000000000000000000000000),
  (3677307519717395583651519836525914000000000000000000000000000000, 3509359683944130879115037214062018000000000000000000000000000000),
  (8987454298072985686266465683835089000000000000000000000000000000, 7512481425050474975874224219224556000000000000000000000000000000),
  (19671860077704567366108827870548910000000000000000000000000000000, 14422692833253912378511046203945290000000000000000000000000000000),
  (39105735161257934713951440110614260000000000000000000000000000000, 25136794329540933750597777101929650000000000000000000000000000000),
  (71370010285610265431448552475078830000000000000000000000000000000, 40092596159957011308298754898848960000000000000000000000000000000),
  (120548765838858708933146286943109000000000000000000000000000000000, 58774726297720996644970256791442540000000000000000000000000000000),
  (189550107826345132510784837665045500000000000000000000000000000000, 79299750244295749169509570976350770000000000000000000000000000000),
  (278682984723563091297125352192232400000000000000000000000000000000, 98402742006605922042086497042387760000000000000000000000000000000),
  (384554101802676680419493740284089600000000000000000000000000000000, 112122018703034401523454999264280400000000000000000000000000000000),
  (500000000000000000000000000000000000000000000000000000000000000000, 117130961807247467004872437714245300000000000000000000000000000000),
  (615445898197323319580506259715910500000000000000000000000000000000, 112122018703034401523454999264280400000000000000000000000000000000),
  (721317015276436908702874647807767600000000000000000000000000000000, 98402742006605922042086497042387760000000000000000000000000000000),
  (810449892173654867489215162334954500000000000000000000000000000000, 79299750244295749169509570976350770000000000000000000000000000000),
  (879451234161141291066853713056891100000000000000000000000000000000, 58774726297720996644970256791442540000000000000000000000000000000),
  (928629989714389734568551447524921200000000000000000000000000000000, 40092596159957011308298754898848960000000000000000000000000000000),
  (960894264838742065286048559889385700000000000000000000000000000000, 25136794329540933750597777101929650000000000000000000000000000000),
  (980328139922295432633891172129451100000000000000000000000000000000, 14422692833253912378511046203945280000000000000000000000000000000),
  (991012545701927014313733534316164900000000000000000000000000000000, 7512481425050474975874224219224556000000000000000000000000000000),
  (996322692480282604416348480163474000000000000000000000000000000000, 3509359683944130879115037214062018000000000000000000000000000000),
  (998675914909252822822287779082708200000000000000000000000000000000, 1446074867560551480063050173211441000000000000000000000000000000),
  (999589270837515107337503109738730400000000000000000000000000000000, 514709705209590672634192030854761300000000000000000000000000000),
  (999892977560865837969461889005625700000000000000000000000000000000, 154278539513314491079025281242000800000000000000000000000000000),
  (999977258154383863899736759944323100000000000000000000000000000000, 37793004184225815523113837291969850000000000000000000000000000),
  (999996192097716851986930728551898700000000000000000000000000000000, 7307535397500503063108939204314393000000000000000000000000000),
  (999999517183603086971742917587967500000000000000000000000000000000, 1071369892439308633317643438873791000000000000000000000000000),
  (999999955727466069438581808747956200000000000000000000000000000000, 113709422682991303092705826876111700000000000000000000000000),
  (999999997216300487915324705943108900000000000000000000000000000000, 8281568609476468428811920166882561000000000000000000000000),
  (999999999887157391713537582061416900000000000000000000000000000000, 389074536953455649686303693524430500000000000000000000000),
  (999999999997254219642746467265090000000000000000000000000000000000, 10976770272100566585792190766647450000000000000000000000),
  (999999999999963081814266190037160700000000000000000000000000000000, 171171659903431134301351967219103900000000000000000000),
  (999999999999999750829678487165844900000000000000000000000000000000, 1340200918640601017784020884084954000000000000000000)]

/-- n = 44. quadrature_lib.cpp:6043-6086. -/
def b44 : List (Nat × Nat) := [
  (123682573201504327199708114302781800000000000000000, 666414987697333571975367781110015100000000000000000),
  (18602097833525141362389358300119590000000000000000000, 86619863546257691318139482230953780000000000000000000),
  (1416937799043679854200391062085652000000000000000000000, 5703186103791052431864076420443561000000000000000000000),
  (60002481225679232909583271318710970000000000000000000000, 208819038192724024503967922456844600000000000000000000000),
  (1531174232963761923283697598192933000000000000000000000000, 4609184066140010628729245154745641000000000000000000000000),
  (25245909951366271521825990574345040000000000000000000000000, 65767114566181759649069247940568860000000000000000000000000),
  (285667283509881109225284259696357000000000000000000000000000, 644451005951464455752063237618424000000000000000000000000000),
  (2337255680929056887098174173381003000000000000000000000000000, 4570226366161159125120542742870043000000000000000000000000000),
  (14466653638840467071507322261941720000000000000000000000000000, 24548103178296909746900183673927700000000000000000000000000000),
  (70447771099676614453731551866150930000000000000000000000000000, 103898113980284596759265372477512800000000000000000000000000000),
  (279223005582152167455904104581177400000000000000000000000000000, 358616679114892428480248241399874000000000000000000000000000000),
  (927613986432444555825004220762285800000000000000000000000000000, 1039919261521982264523032934771417000000000000000000000000000000),
  (2648901877015816223382159977618135000000000000000000000000000000, 2598742574082969595082235488136917000000000000000000000000000000),
  (6642669619170019275429169569762762000000000000000000000000000000, 5716960489309290786889988355415559000000000000000000000000000000),
  (14891618899768788495144216810134760000000000000000000000000000000, 11263056533263780969966071017673290000000000000000000000000000000),
  (30279525543591017824987527671082490000000000000000000000000000000, 20132857610908231045242130549863240000000000000000000000000000000),
  (56480835036991958027676680909331940000000000000000000000000000000, 32950161955459331913165292962420290000000000000000000000000000000),
  (97485093875183395603545760853623350000000000000000000000000000000, 49644780346229262589183759647447510000000000000000000000000000000),
  (156679302344477068013824070295949700000000000000000000000000000000, 69019580759771639700390325657804620000000000000000000000000000000),
  (235587293567976789813797401806909100000000000000000000000000000000, 88547087720881539588881071091866460000000000000000000000000000000),
  (332647561300723019332474518697724600000000000000000000000000000000, 104694247441485923772851357878615600000000000000000000000000000000),
  (442647189391629538214791136942426200000000000000000000000000000000, 113900257142532318318438138253238100000000000000000000000000000000),
  (557352810608370461785208863057573900000000000000000000000000000000, 113900257142532318318438138253238100000000000000000000000000000000),
  (667352438699276980667525481302275400000000000000000000000000000000, 104694247441485923772851357878615600000000000000000000000000000000),
  (764412706432023210186202598193090900000000000000000000000000000000, 88547087720881539588881071091866460000000000000000000000000000000),
  (843320697655522931986175929704050300000000000000000000000000000000, 69019580759771639700390325657804620000000000000000000000000000000),
  (902514906124816604396454239146376700000000000000000000000000000000, 49644780346229262589183759647447510000000000000000000000000000000),
  (943519164963008041972323319090668000000000000000000000000000000000, 32950161955459331913165292962420290000000000000000000000000000000),
  (969720474456408982175012472328917600000000000000000000000000000000, 20132857610908231045242130549863240000000000000000000000000000000),
  (985108381100231211504855783189865300000000000000000000000000000000, 11263056533263780969966071017673290000000000000000000000000000000),
  (993357330380829980724570830430237100000000000000000000000000000000, 5716960489309290786889988355415560000000000000000000000000000000),
  (997351098122984183776617840022381800000000000000000000000000000000, 2598742574082969595082235488136917000000000000000000000000000000),
  (999072386013567555444174995779237800000000000000000000000000000000, 1039919261521982264523032934771417000000000000000000000000000000),
  (999720776994417847832544095895418800000000000000000000000000000000, 358616679114892428480248241399874100000000000000000000000000000),
  (999929552228900323385546268448133800000000000000000000000000000000, 103898113980284596759265372477512900000000000000000000000000000),
  (999985533346361159532928492677738000000000000000000000000000000000, 24548103178296909746900183673927700000000000000000000000000000),
  (999997662744319070943112901825826500000000000000000000000000000000, 4570226366161159125120542742870043000000000000000000000000000),
  (999999714332716490118890774715740300000000000000000000000000000000, 644451005951464455752063237618424000000000000000000000000000),
  (999999974754090048633728478174009400000000000000000000000000000000, 65767114566181759649069247940568860000000000000000000000000),
  (999999998468825767036238076716302400000000000000000000000000000000, 4609184066140010628729245154745628000000000000000000000000),
  (999999999939997518774320767090416800000000000000000000000000000000, 208819038192724024503967922456844600000000000000000000000),
  (999999999998583062200956320145799700000000000000000000000000000000, 5703186103791052431864076420443561000000000000000000000),
  (999999999999981397902166474858637600000000000000000000000000000000, 86619863546257691318139482230953780000000000000000000),
  (999999999999999876317426798495672800000000000000000000000000000000, 666414987697333571975367781110015100000000000000000)]

/-- n = 45. quadrature_lib.cpp:6087-6131. -/
def b45 : List (Nat × Nat) := [
  (61569636157441611891308740333043420000000000000000, 332304087151308340308706997708046700000000000000000),
  (9395062870929695765901897954154843000000000000000000, 43928729557194547198134130592577590000000000000000000),
  (732346701334124133775897209950677600000000000000000000, 2967089316320071078025403668695559000000000000000000000),
  (31927217874230733300280265581045380000000000000000000000, 112112288519999247266330839122693400000000000000000000000),
  (842030078664591258376171438854136700000000000000000000000, 2563591580630856655367744911461674000000000000000000000000),
  (14380426017741153020480651673843620000000000000000000000000, 37977179858848411993690540313040540000000000000000000000000),
  (168703508467326928159401060875576400000000000000000000000000, 386697519694682915056156516933765400000000000000000000000000),
  (1430945762097806136799103386488021000000000000000000000000000, 2849181990777828181292348639781529000000000000000000000000000),
  (9174369612236758429629675562565436000000000000000000000000000, 15885070487261514369660530401346520000000000000000000000000000),
  (46212061276557103863265287814897400000000000000000000000000000, 69677326075572021684991290693679280000000000000000000000000000),
  (189116974105111897748513555486955500000000000000000000000000000, 248748980640857002225209079607766400000000000000000000000000000),
  (647349776872558957860663259825050800000000000000000000000000000, 744390731483121179537992800312604900000000000000000000000000000),
  (1900596737932597514639540410538383000000000000000000000000000000, 1915313910952917716697737902865199000000000000000000000000000000),
  (4890019008211442549057503409037589000000000000000000000000000000, 4329241419407104720819582034549073000000000000000000000000000000),
  (11226626844507808357671976128290990000000000000000000000000000000, 8749316000029137814403247898330693000000000000000000000000000000),
  (23343249724840066512736646685749680000000000000000000000000000000, 16029255514302119487781369199946300000000000000000000000000000000),
  (44483701950360424606243578072720260000000000000000000000000000000, 26889210591997627390448315394917410000000000000000000000000000000),
  (78405130752366303930205933434002870000000000000000000000000000000, 41569623355092824652803363198935010000000000000000000000000000000),
  (128694520992932320711030428298959800000000000000000000000000000000, 59423630168085001399085738490525650000000000000000000000000000000),
  (197711335737745558167777491895483800000000000000000000000000000000, 78614362218525897037514048943560050000000000000000000000000000000),
  (285386242165061611385381906631387400000000000000000000000000000000, 96175219229165952274586844514276610000000000000000000000000000000),
  (388356427696723459949039792131818000000000000000000000000000000000, 108640562162501303698521422625660600000000000000000000000000000000),
  (500000000000000000000000000000000000000000000000000000000000000000, 113164573571695502458383628664162700000000000000000000000000000000),
  (611643572303276540050960207868182100000000000000000000000000000000, 108640562162501303698521422625660600000000000000000000000000000000),
  (714613757834938388614618093368612500000000000000000000000000000000, 96175219229165952274586844514276610000000000000000000000000000000),
  (802288664262254441832222508104516100000000000000000000000000000000, 78614362218525897037514048943560050000000000000000000000000000000),
  (871305479007067679288969571701040200000000000000000000000000000000, 59423630168085001399085738490525650000000000000000000000000000000),
  (921594869247633696069794066565997200000000000000000000000000000000, 41569623355092824652803363198935010000000000000000000000000000000),
  (955516298049639575393756421927279700000000000000000000000000000000, 26889210591997627390448315394917410000000000000000000000000000000),
  (976656750275159933487263353314250300000000000000000000000000000000, 16029255514302119487781369199946290000000000000000000000000000000),
  (988773373155492191642328023871709000000000000000000000000000000000, 8749316000029137814403247898330693000000000000000000000000000000),
  (995109980991788557450942496590962300000000000000000000000000000000, 4329241419407104720819582034549073000000000000000000000000000000),
  (998099403262067402485360459589461600000000000000000000000000000000, 1915313910952917716697737902865199000000000000000000000000000000),
  (999352650223127441042139336740174900000000000000000000000000000000, 744390731483121179537992800312604900000000000000000000000000000),
  (999810883025894888102251486444513000000000000000000000000000000000, 248748980640857002225209079607766400000000000000000000000000000),
  (999953787938723442896136734712185200000000000000000000000000000000, 69677326075572021684991290693679280000000000000000000000000000),
  (999990825630387763241570370324437500000000000000000000000000000000, 15885070487261514369660530401346520000000000000000000000000000),
  (999998569054237902193863200896613500000000000000000000000000000000, 2849181990777828181292348639781529000000000000000000000000000),
  (999999831296491532673071840598939000000000000000000000000000000000, 386697519694682915056156516933765400000000000000000000000000),
  (999999985619573982258846979519348200000000000000000000000000000000, 37977179858848411993690540313040540000000000000000000000000),
  (999999999157969921335408741623828600000000000000000000000000000000, 2563591580630856655367744911461674000000000000000000000000),
  (999999999968072782125769266699719700000000000000000000000000000000, 112112288519999247266330839122693400000000000000000000000),
  (999999999999267653298665875866224100000000000000000000000000000000, 2967089316320071078025403668695559000000000000000000000),
  (999999999999990604937129070304234100000000000000000000000000000000, 43928729557194547198134130592577590000000000000000000),
  (999999999999999938430363842558388100000000000000000000000000000000, 332304087151308340308706997708046700000000000000000)]

/-- n = 46. quadrature_lib.cpp:6132-6177. -/
def b46 : List (Nat × Nat) := [
  (30735102898455338406971782779745410000000000000000, 166153154441399088479487592520230100000000000000000),
  (4755872050409086779567125466145047000000000000000000, 22325741389658851051356394748657880000000000000000000),
  (379102534502880458622920076313266600000000000000000000, 1545657129761416430277508886489672000000000000000000000),
  (17000394554429210713932070021559090000000000000000000000, 60214469310225441469508013974519380000000000000000000000),
  (462974662317951963861753131343301400000000000000000000000, 1425027104757384549199016416347289000000000000000000000000),
  (8183045996259380747543935387454154000000000000000000000000, 21897196739779151137301197256802560000000000000000000000000),
  (99453472981672253577914923306130000000000000000000000000000, 231496249925955115124239117107758500000000000000000000000000),
  (873953140171092819115167267390221700000000000000000000000000, 1770856242258083641442121892792461000000000000000000000000000),
  (5800985378755251351590747587677902000000000000000000000000000, 10242118536863321701269828513102950000000000000000000000000000),
  (30212529496062109867680722771718450000000000000000000000000000, 46539020406841520320602271066011820000000000000000000000000000),
  (127624928450598671400088330015438800000000000000000000000000000, 171794241369955634542793785888583800000000000000000000000000000),
  (450056774543179891017873524139607500000000000000000000000000000, 530449927334415899033581213384528700000000000000000000000000000),
  (1358427771995037006797542321721095000000000000000000000000000000, 1405116279217808115731403611242258000000000000000000000000000000),
  (3585754599185238463079962465532428000000000000000000000000000000, 3262861354544645253085302201862593000000000000000000000000000000),
  (8429954953328880649610762654444813000000000000000000000000000000, 6762695950245335199259887234968656000000000000000000000000000000),
  (17921163694516006069345576391961070000000000000000000000000000000, 12691899104556523207599984553062710000000000000000000000000000000),
  (34877767963264263047907175478782040000000000000000000000000000000, 21803211502855001126606030764087510000000000000000000000000000000),
  (62743427535007982060225693773248690000000000000000000000000000000, 34539700927030710269447236454111320000000000000000000000000000000),
  (105101477027574605530123529994228200000000000000000000000000000000, 50674654030577805437424603459299920000000000000000000000000000000),
  (164827099286010860585352614707639700000000000000000000000000000000, 68973418588012757409681665906123090000000000000000000000000000000),
  (242993507004761309256654353329416100000000000000000000000000000000, 87079249362367565460079127718280750000000000000000000000000000000),
  (337873011008208546368533028824218600000000000000000000000000000000, 101848201828021105728295077624445600000000000000000000000000000000),
  (444536947028095373614560695734634100000000000000000000000000000000, 110197940028424019507368222362514400000000000000000000000000000000),
  (555463052971904626385439304265365900000000000000000000000000000000, 110197940028424019507368222362514400000000000000000000000000000000),
  (662126988991791453631466971175781400000000000000000000000000000000, 101848201828021105728295077624445600000000000000000000000000000000),
  (757006492995238690743345646670583900000000000000000000000000000000, 87079249362367565460079127718280720000000000000000000000000000000),
  (835172900713989139414647385292360300000000000000000000000000000000, 68973418588012757409681665906123090000000000000000000000000000000),
  (894898522972425394469876470005771900000000000000000000000000000000, 50674654030577805437424603459299920000000000000000000000000000000),
  (937256572464992017939774306226751300000000000000000000000000000000, 34539700927030710269447236454111320000000000000000000000000000000),
  (965122232036735736952092824521218000000000000000000000000000000000, 21803211502855001126606030764087510000000000000000000000000000000),
  (982078836305483993930654423608038900000000000000000000000000000000, 12691899104556523207599984553062710000000000000000000000000000000),
  (991570045046671119350389237345555200000000000000000000000000000000, 6762695950245335199259887234968656000000000000000000000000000000),
  (996414245400814761536920037534467500000000000000000000000000000000, 3262861354544645253085302201862593000000000000000000000000000000),
  (998641572228004962993202457678279000000000000000000000000000000000, 1405116279217808115731403611242259000000000000000000000000000000),
  (999549943225456820108982126475860500000000000000000000000000000000, 530449927334415899033581213384528700000000000000000000000000000),
  (999872375071549401328599911669984700000000000000000000000000000000, 171794241369955634542793785888583800000000000000000000000000000),
  (999969787470503937890132319277228300000000000000000000000000000000, 46539020406841520320602271066011820000000000000000000000000000),
  (999994199014621244748648409252412300000000000000000000000000000000, 10242118536863321701269828513102950000000000000000000000000000),
  (999999126046859828907180884832732600000000000000000000000000000000, 1770856242258083641442121892792461000000000000000000000000000),
  (999999900546527018327746422085076700000000000000000000000000000000, 231496249925955115124239117107758400000000000000000000000000),
  (999999991816954003740619252456064600000000000000000000000000000000, 21897196739779151137301197256802560000000000000000000000000),
  (999999999537025337682048036138246900000000000000000000000000000000, 1425027104757384549199016416347289000000000000000000000000),
  (999999999982999605445570789286067800000000000000000000000000000000, 60214469310225441469508013974519210000000000000000000000),
  (999999999999620897465497119541377200000000000000000000000000000000, 1545657129761416430277508886489672000000000000000000000),
  (999999999999995244127949590913220300000000000000000000000000000000, 22325741389658851051356394748657880000000000000000000),
  (999999999999999969264897101544661600000000000000000000000000000000, 166153154441399088479487592520230100000000000000000)]

/-- n = 47. quadrature_lib.cpp:6178-6224. -/
def b47 : List (Nat × Nat) := [
  (15384333791019890663580644476668270000000000000000, 83297321153057795145781503213579890000000000000000),
  (2412852403545350296548919922252724000000000000000000, 11370260446985910961867648078956380000000000000000000),
  (196545699615250939308554128652347400000000000000000000, 806239137930888086549458047426405600000000000000000000),
  (9058829643124721586424533913882402000000000000000000000, 32354143500959459318759773853367890000000000000000000000),
  (254529090161504708790854989155848000000000000000000000000, 791736055916639417450219148521754800000000000000000000000),
  (4652183586204901181237974075622764000000000000000000000000, 12608208108636259414598240946486350000000000000000000000000),
  (58531917277695937158335043655844450000000000000000000000000, 138281642202781848779024179879132200000000000000000000000000),
  (532538003306967856423526035322188000000000000000000000000000, 1097461393102054322216205773163045000000000000000000000000000),
  (3657589148129405186665240817932094000000000000000000000000000, 6580861081026085452174064211667864000000000000000000000000000),
  (19688375429640972232644203090786200000000000000000000000000000, 30963083381395499177615859296046940000000000000000000000000000),
  (85823888617234274053431911531160800000000000000000000000000000, 118147750384285390554440684190677700000000000000000000000000000),
  (311736899343136738524104615057146400000000000000000000000000000, 376337674056126446969932214447884900000000000000000000000000000),
  (967248500927153868173624952099836000000000000000000000000000000, 1026192331210820509547213695494221000000000000000000000000000000),
  (2619314859766566884850459093619068000000000000000000000000000000, 2447867539912099369063768443159588000000000000000000000000000000),
  (6305463101548762721372728261287742000000000000000000000000000000, 5202224528964741619690074074726444000000000000000000000000000000),
  (13703619479792771436106653080744350000000000000000000000000000000, 9997670791417310582977716778843473000000000000000000000000000000),
  (27230337188890738709562340149183870000000000000000000000000000000, 17576136098243521128775823601658620000000000000000000000000000000),
  (49976433392093911335097629901835760000000000000000000000000000000, 28500270899595016784022099984538050000000000000000000000000000000),
  (85381622567947731641541318776016160000000000000000000000000000000, 42848995715881868745646304793583270000000000000000000000000000000),
  (136581965167251368473808290794105300000000000000000000000000000000, 59884655055838685648718903636662490000000000000000000000000000000),
  (205467858895074365344050209503783000000000000000000000000000000000, 77838326818718845469914505281831600000000000000000000000000000000),
  (291671791291839487528627995858025400000000000000000000000000000000, 94018194100019657074894251758860640000000000000000000000000000000),
  (391892707071487010754832774559338800000000000000000000000000000000, 105383256820888344853541135538849300000000000000000000000000000000),
  (500000000000000000000000000000000000000000000000000000000000000000, 109485861508509898410651451874332700000000000000000000000000000000),
  (608107292928512989245167225440661300000000000000000000000000000000, 105383256820888344853541135538849300000000000000000000000000000000),
  (708328208708160512471372004141974600000000000000000000000000000000, 94018194100019657074894251758860640000000000000000000000000000000),
  (794532141104925634655949790496217000000000000000000000000000000000, 77838326818718845469914505281831600000000000000000000000000000000),
  (863418034832748631526191709205894700000000000000000000000000000000, 59884655055838685648718903636662490000000000000000000000000000000),
  (914618377432052268358458681223983900000000000000000000000000000000, 42848995715881868745646304793583270000000000000000000000000000000),
  (950023566607906088664902370098164200000000000000000000000000000000, 28500270899595016784022099984538050000000000000000000000000000000),
  (972769662811109261290437659850816100000000000000000000000000000000, 17576136098243521128775823601658620000000000000000000000000000000),
  (986296380520207228563893346919255800000000000000000000000000000000, 9997670791417310582977716778843473000000000000000000000000000000),
  (993694536898451237278627271738712400000000000000000000000000000000, 5202224528964741619690074074726444000000000000000000000000000000),
  (997380685140233433115149540906380900000000000000000000000000000000, 2447867539912099369063768443159588000000000000000000000000000000),
  (999032751499072846131826375047900200000000000000000000000000000000, 1026192331210820509547213695494221000000000000000000000000000000),
  (999688263100656863261475895384943000000000000000000000000000000000, 376337674056126446969932214447885100000000000000000000000000000),
  (999914176111382765725946568088468800000000000000000000000000000000, 118147750384285390554440684190677700000000000000000000000000000),
  (999980311624570359027767355796909200000000000000000000000000000000, 30963083381395499177615859296046940000000000000000000000000000),
  (999996342410851870594813334759182000000000000000000000000000000000, 6580861081026085452174064211667864000000000000000000000000000),
  (999999467461996693032143576473964800000000000000000000000000000000, 1097461393102054322216205773163045000000000000000000000000000),
  (999999941468082722304062841664956300000000000000000000000000000000, 138281642202781848779024179879132200000000000000000000000000),
  (999999995347816413795098818762025900000000000000000000000000000000, 12608208108636259414598240946486390000000000000000000000000),
  (999999999745470909838495291209145100000000000000000000000000000000, 791736055916639417450219148521754900000000000000000000000),
  (999999999990941170356875278413575600000000000000000000000000000000, 32354143500959459318759773853367890000000000000000000000),
  (999999999999803454300384749060691400000000000000000000000000000000, 806239137930888086549458047426405600000000000000000000),
  (999999999999997587147596454649703500000000000000000000000000000000, 11370260446985910961867648078956380000000000000000000),
  (999999999999999984615666208980109300000000000000000000000000000000, 83297321153057795145781503213579880000000000000000)]

/-- n = 48. quadrature_lib.cpp:6225-6272. -/
def b48 : List (Nat × Nat) := [
  (7720870242639782185300162655875161000000000000000, 41867026138304896666523644362901430000000000000000),
  (1226816905189046626296964256142626000000000000000000, 5802617832321972470466624267131749000000000000000000),
  (102054004859247213024654136519817900000000000000000000, 421095797328241380927744703601049600000000000000000000),
  (4830681342031190061613344100628499000000000000000000000, 17392243262765964082207550363679310000000000000000000000),
  (139923410528242842339918518411653300000000000000000000000, 439695260480487824149404993668070700000000000000000000000),
  (2642598590773389802501253255986998000000000000000000000000, 7250391674424469632478216754666656000000000000000000000000),
  (34394178806892641580488996878379340000000000000000000000000, 82430315118611951135824308051913540000000000000000000000000),
  (323785934719319816110219470306115300000000000000000000000000, 678262038657407119681310330537216900000000000000000000000000),
  (2299876081552305022288912052379025000000000000000000000000000, 4214332016275290611788874555741688000000000000000000000000000),
  (12789994998534856493562333246161930000000000000000000000000000, 20522510727659914820828970006178750000000000000000000000000000),
  (57516231152327837775391309676372570000000000000000000000000000, 80921588066552051698300331976352570000000000000000000000000000),
  (215148204798882163379714714304758100000000000000000000000000000, 265856632832662057337959626335630200000000000000000000000000000),
  (686160936830347837136460065560861100000000000000000000000000000, 746163968776888083899298420068360100000000000000000000000000000),
  (1906177947193952182486910914120354000000000000000000000000000000, 1828237066269961017801738649612028000000000000000000000000000000),
  (4698549667297539285298891511779359000000000000000000000000000000, 3983443856941931668557161820007770000000000000000000000000000000),
  (10438217916915972281470609541973350000000000000000000000000000000, 7837046480142572277162010983428510000000000000000000000000000000),
  (21173955384681904519384300217536460000000000000000000000000000000, 14092214411590810508327201012337310000000000000000000000000000000),
  (39633687480845694001388259861701620000000000000000000000000000000, 23369721250287872915303865861874160000000000000000000000000000000),
  (69024418061314174069828427548352550000000000000000000000000000000, 35958973112044111933593230398888900000000000000000000000000000000),
  (112550340811111460248481917059285000000000000000000000000000000000, 51513643526791340958071551454923000000000000000000000000000000000),
  (172637034333564314219466492131366400000000000000000000000000000000, 68791207848037206136701339062555900000000000000000000000000000000),
  (249985303189552702544183748475621200000000000000000000000000000000, 85604156023217535229066555436029700000000000000000000000000000000),
  (342755548472537359246336885866214000000000000000000000000000000000, 99150959149684565593244785667586490000000000000000000000000000000),
  (446293525518720182352874457903525200000000000000000000000000000000, 106751949842312159894821443927051100000000000000000000000000000000),
  (553706474481279817647125542096474900000000000000000000000000000000, 106751949842312159894821443927051100000000000000000000000000000000),
  (657244451527462640753663114133785900000000000000000000000000000000, 99150959149684565593244785667586490000000000000000000000000000000),
  (750014696810447297455816251524378800000000000000000000000000000000, 85604156023217535229066555436029700000000000000000000000000000000),
  (827362965666435685780533507868633600000000000000000000000000000000, 68791207848037206136701339062555900000000000000000000000000000000),
  (887449659188888539751518082940715100000000000000000000000000000000, 51513643526791340958071551454922990000000000000000000000000000000),
  (930975581938685825930171572451647400000000000000000000000000000000, 35958973112044111933593230398888900000000000000000000000000000000),
  (960366312519154305998611740138298400000000000000000000000000000000, 23369721250287872915303865861874160000000000000000000000000000000),
  (978826044615318095480615699782463500000000000000000000000000000000, 14092214411590810508327201012337310000000000000000000000000000000),
  (989561782083084027718529390458026600000000000000000000000000000000, 7837046480142572277162010983428510000000000000000000000000000000),
  (995301450332702460714701108488220600000000000000000000000000000000, 3983443856941931668557161820007767000000000000000000000000000000),
  (998093822052806047817513089085879600000000000000000000000000000000, 1828237066269961017801738649612028000000000000000000000000000000),
  (999313839063169652162863539934439100000000000000000000000000000000, 746163968776888083899298420068360100000000000000000000000000000),
  (999784851795201117836620285285695100000000000000000000000000000000, 265856632832662057337959626335630200000000000000000000000000000),
  (999942483768847672162224608690323600000000000000000000000000000000, 80921588066552051698300331976352570000000000000000000000000000),
  (999987210005001465143506437666753800000000000000000000000000000000, 20522510727659914820828970006178750000000000000000000000000000),
  (999997700123918447694977711087947700000000000000000000000000000000, 4214332016275290611788874555741688000000000000000000000000000),
  (999999676214065280680183889780529600000000000000000000000000000000, 678262038657407119681310330537216900000000000000000000000000),
  (999999965605821193107358419511003200000000000000000000000000000000, 82430315118611951135824308051913540000000000000000000000000),
  (999999997357401409226610197498746700000000000000000000000000000000, 7250391674424469632478216754666656000000000000000000000000),
  (999999999860076589471757157660081500000000000000000000000000000000, 439695260480487824149404993668070700000000000000000000000),
  (999999999995169318657968809938386500000000000000000000000000000000, 17392243262765964082207550363679320000000000000000000000),
  (999999999999897945995140752786975400000000000000000000000000000000, 421095797328241380927744703601049600000000000000000000),
  (999999999999998773183094810953373700000000000000000000000000000000, 5802617832321972470466624267131749000000000000000000),
  (999999999999999992279129757360217800000000000000000000000000000000, 41867026138304896666523644362901430000000000000000)]

/-- n = 49. quadrature_lib.cpp:6273-6321. -/
def b49 : List (Nat × Nat) := [
  (3884780661812724583288010797553707000000000000000, 21096109339026492569485659273600640000000000000000),
  (625109704295660665026912517278563000000000000000000, 2967214019113781864710679405591023000000000000000000),
  (53069971297451217467689819370160810000000000000000000, 220222608449701923731607589503856700000000000000000000),
  (2577952799450125888914869830234505000000000000000000000, 9353878255835563499741889503331043000000000000000000000),
  (76919528773313763035859964823580700000000000000000000000, 244098997926742906857049018192802200000000000000000000000),
  (1499926144867762945336810069356059000000000000000000000000, 4164417683961771853171104075585587000000000000000000000000),
  (20180726252807028448674170907496320000000000000000000000000, 49041329828594413024059939226786460000000000000000000000000),
  (196451661008234023958268422152848500000000000000000000000000, 418085328217890330877719666568026700000000000000000000000000),
  (1442372917411350734838134581506967000000000000000000000000000, 2690212881311828638742516968586123000000000000000000000000000),
  (8283509313255365731009092805896379000000000000000000000000000, 13552923567178307452727418972946050000000000000000000000000000),
  (38417038909615708171284326713133290000000000000000000000000000, 55204868097506402746044770134744150000000000000000000000000000),
  (147962590369459951533064326493944400000000000000000000000000000, 187025039922547933805101280173999700000000000000000000000000000),
  (484988365032158424626968436297543500000000000000000000000000000, 540220630142888001743793551284856900000000000000000000000000000),
  (1382091894046562784630627569720464000000000000000000000000000000, 1359497904639418342518008398116975000000000000000000000000000000),
  (3488183805502347307900593125061372000000000000000000000000000000, 3036627759694101397066087718742113000000000000000000000000000000),
  (7921118534482441998785511216585023000000000000000000000000000000, 6114841824228510489126853124615267000000000000000000000000000000),
  (16400871044340691546362499693889480000000000000000000000000000000, 11241976056783885038889417906144170000000000000000000000000000000),
  (31301988814594745607823084837488880000000000000000000000000000000, 19053132027056973652588952894131150000000000000000000000000000000),
  (55548493722484231601909440963461580000000000000000000000000000000, 29972563539291209956040465186735470000000000000000000000000000000),
  (92274446765067469656305686723583110000000000000000000000000000000, 43948697309765562810122995360819660000000000000000000000000000000),
  (144209564164241632756547695530665200000000000000000000000000000000, 60184988223013056816777795100310840000000000000000000000000000000),
  (212844137774284043249100522878169400000000000000000000000000000000, 76993684320935211492100185385706920000000000000000000000000000000),
  (297577153601656284900037792007351500000000000000000000000000000000, 91933916529083085801911225797751650000000000000000000000000000000),
  (395190693247590397202799871188860600000000000000000000000000000000, 102329146390637410867344304518939000000000000000000000000000000000),
  (500000000000000000000000000000000000000000000000000000000000000000, 106063525791016646626909838061724200000000000000000000000000000000),
  (604809306752409602797200128811139500000000000000000000000000000000, 102329146390637410867344304518939000000000000000000000000000000000),
  (702422846398343715099962207992648500000000000000000000000000000000, 91933916529083085801911225797751650000000000000000000000000000000),
  (787155862225715956750899477121830500000000000000000000000000000000, 76993684320935211492100185385706920000000000000000000000000000000),
  (855790435835758367243452304469334800000000000000000000000000000000, 60184988223013056816777795100310840000000000000000000000000000000),
  (907725553234932530343694313276416900000000000000000000000000000000, 43948697309765562810122995360819660000000000000000000000000000000),
  (944451506277515768398090559036538400000000000000000000000000000000, 29972563539291209956040465186735470000000000000000000000000000000),
  (968698011185405254392176915162511100000000000000000000000000000000, 19053132027056973652588952894131150000000000000000000000000000000),
  (983599128955659308453637500306110600000000000000000000000000000000, 11241976056783885038889417906144170000000000000000000000000000000),
  (992078881465517558001214488783415100000000000000000000000000000000, 6114841824228510489126853124615267000000000000000000000000000000),
  (996511816194497652692099406874938600000000000000000000000000000000, 3036627759694101397066087718742113000000000000000000000000000000),
  (998617908105953437215369372430279500000000000000000000000000000000, 1359497904639418342518008398116975000000000000000000000000000000),
  (999515011634967841575373031563702400000000000000000000000000000000, 540220630142888001743793551284856900000000000000000000000000000),
  (999852037409630540048466935673506000000000000000000000000000000000, 187025039922547933805101280173999700000000000000000000000000000),
  (999961582961090384291828715673287000000000000000000000000000000000, 55204868097506402746044770134744060000000000000000000000000000),
  (999991716490686744634268990907194200000000000000000000000000000000, 13552923567178307452727418972946070000000000000000000000000000),
  (999998557627082588649265161865418600000000000000000000000000000000, 2690212881311828638742516968586123000000000000000000000000000),
  (999999803548338991765976041731577800000000000000000000000000000000, 418085328217890330877719666568026700000000000000000000000000),
  (999999979819273747192971551325829100000000000000000000000000000000, 49041329828594413024059939226786450000000000000000000000000),
  (999999998500073855132237054663189900000000000000000000000000000000, 4164417683961771853171104075585587000000000000000000000000),
  (999999999923080471226686236964140000000000000000000000000000000000, 244098997926742906857049018192802200000000000000000000000),
  (999999999997422047200549874111085100000000000000000000000000000000, 9353878255835563499741889503331043000000000000000000000),
  (999999999999946930028702548782532400000000000000000000000000000000, 220222608449701923731607589503856700000000000000000000),
  (999999999999999374890295704339334900000000000000000000000000000000, 2967214019113781864710679405591023000000000000000000),
  (999999999999999996115219338187275300000000000000000000000000000000, 21096109339026492569485659273600640000000000000000)]

/-- n = 50. quadrature_lib.cpp:6322-6371. -/
def b50 : List (Nat × Nat) := [
  (1959521554663061184140109668941001000000000000000, 10655987056769934965083680663739460000000000000000),
  (319183249068285993952652194675628600000000000000000, 1520295400896071536508026568428592000000000000000000),
  (27638376064585843369844597820571530000000000000000000, 115319854316309135487008181396568000000000000000000000),
  (1376822624059031933192188346491312000000000000000000000, 5033275043777773174358842344759416000000000000000000000),
  (42285854886896914549337948277935130000000000000000000000, 135472067448733540070714675293582700000000000000000000000),
  (850751555734961383114966430903259400000000000000000000000, 2389300107536624779624034576724073000000000000000000000000),
  (11824600026734580819375342560720860000000000000000000000000, 29123167458910942319090622991234030000000000000000000000000),
  (118956252414837188403482212355728300000000000000000000000000, 257066670292981237643792894934742100000000000000000000000000),
  (902318745393625680099228402738467100000000000000000000000000, 1712036935174524765588978313980116000000000000000000000000000),
  (5349173736389246677962377799219182000000000000000000000000000, 8918816831706883972833852150582371000000000000000000000000000),
  (25577020951047197255068088662790260000000000000000000000000000, 37515930705991970040352145813390440000000000000000000000000000),
  (101406776392800660257378050777760300000000000000000000000000000, 131032785828162401896012238214363100000000000000000000000000000),
  (341574082574147997623421862271496500000000000000000000000000000, 389475639547774941762223028331222000000000000000000000000000000),
  (998471974360185795384476398113994900000000000000000000000000000, 1006624548540560438960954118213318000000000000000000000000000000),
  (2580198673035916468770980065740086000000000000000000000000000000, 2304836494822745734514371185968157000000000000000000000000000000),
  (5989005014037543062450814029880156000000000000000000000000000000, 4749807105994381640410533435276876000000000000000000000000000000),
  (12656266501708753178409696572091250000000000000000000000000000000, 8925609608259480708647482964439990000000000000000000000000000000),
  (24624894773290517799242618531294000000000000000000000000000000000, 15451771656235121881514296039702740000000000000000000000000000000),
  (44514053425764394627451887860742430000000000000000000000000000000, 24829464716605026537757577915137510000000000000000000000000000000),
  (75294439265704035851099311312570820000000000000000000000000000000, 37218945752814516351599680883723840000000000000000000000000000000),
  (119819726225984649354539788332356000000000000000000000000000000000, 52184550940890835277467206401642240000000000000000000000000000000),
  (180121891200562317790842000375741000000000000000000000000000000000, 68497361972666877562132967186940080000000000000000000000000000000),
  (256594677981317569233239655331845400000000000000000000000000000000, 84133560610570053678735580556402760000000000000000000000000000000),
  (347328405555013455304097713735560300000000000000000000000000000000, 96592754426781769091019708776489980000000000000000000000000000000),
  (447930995444429987579778202770875700000000000000000000000000000000, 103535768236209767647782312563654600000000000000000000000000000000),
  (552069004555570012420221797229124400000000000000000000000000000000, 103535768236209767647782312563654600000000000000000000000000000000),
  (652671594444986544695902286264439700000000000000000000000000000000, 96592754426781769091019708776489980000000000000000000000000000000),
  (743405322018682430766760344668154600000000000000000000000000000000, 84133560610570053678735580556402760000000000000000000000000000000),
  (819878108799437682209157999624259100000000000000000000000000000000, 68497361972666877562132967186940070000000000000000000000000000000),
  (880180273774015350645460211667644100000000000000000000000000000000, 52184550940890835277467206401642240000000000000000000000000000000),
  (924705560734295964148900688687429200000000000000000000000000000000, 37218945752814516351599680883723840000000000000000000000000000000),
  (955485946574235605372548112139257600000000000000000000000000000000, 24829464716605026537757577915137510000000000000000000000000000000),
  (975375105226709482200757381468706000000000000000000000000000000000, 15451771656235121881514296039702740000000000000000000000000000000),
  (987343733498291246821590303427908600000000000000000000000000000000, 8925609608259480708647482964439979000000000000000000000000000000),
  (994010994985962456937549185970119900000000000000000000000000000000, 4749807105994381640410533435276876000000000000000000000000000000),
  (997419801326964083531229019934259800000000000000000000000000000000, 2304836494822745734514371185968157000000000000000000000000000000),
  (999001528025639814204615523601886100000000000000000000000000000000, 1006624548540560438960954118213318000000000000000000000000000000),
  (999658425917425852002376578137728600000000000000000000000000000000, 389475639547774941762223028331222000000000000000000000000000000),
  (999898593223607199339742621949222200000000000000000000000000000000, 131032785828162401896012238214363100000000000000000000000000000),
  (999974422979048952802744931911337200000000000000000000000000000000, 37515930705991970040352145813390440000000000000000000000000000),
  (999994650826263610753322037622200800000000000000000000000000000000, 8918816831706883972833852150582371000000000000000000000000000),
  (999999097681254606374319900771597300000000000000000000000000000000, 1712036935174524765588978313980116000000000000000000000000000),
  (999999881043747585162811596517787600000000000000000000000000000000, 257066670292981237643792894934742100000000000000000000000000),
  (999999988175399973265419180624657400000000000000000000000000000000, 29123167458910942319090622991234030000000000000000000000000),
  (999999999149248444265038616885033600000000000000000000000000000000, 2389300107536624779624034576724073000000000000000000000000),
  (999999999957714145113103085450662100000000000000000000000000000000, 135472067448733540070714675293583100000000000000000000000),
  (999999999998623177375940968066807800000000000000000000000000000000, 5033275043777773174358842344759416000000000000000000000),
  (999999999999972361623935414156630300000000000000000000000000000000, 115319854316309135487008181396568000000000000000000000),
  (999999999999999680816750931714006000000000000000000000000000000000, 1520295400896071536508026568428591000000000000000000),
  (999999999999999998040478445336938800000000000000000000000000000000, 10655987056769934965083680663739400000000000000000)]

/-- Blocks 1..50. -/
def blocks0 : List (List (Nat × Nat)) := [b1, b2, b3, b4, b5, b6, b7, b8, b9, b10, b11, b12, b13, b14, b15, b16, b17, b18, b19, b20, b21, b22, b23, b24, b25, b26, b27, b28, b29, b30, b31, b32, b33, b34, b35, b36, b37, b38, b39, b40, b41, b42, b43, b44, b45, b46, b47, b48, b49, b50]

end Qugar.TanhSinhTable
