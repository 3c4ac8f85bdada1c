/-
Generated by scripts/gen_data.py from tokamak_neutron_source/data/cross_sections/*.txt.
Each row is (energy in 1e-12 MeV, cross section in 1e-50 barn), exact.
-/

set_option autoImplicit false
set_option maxRecDepth 100000

namespace TNS.Data

def dtRows0 : List (Nat × Nat) := [
  (100000000, 0),
  (200000000, 743270000000),
  (300000000, 40555000000000000000),
  (305443000, 82292000000000000000),
  (306733000, 97046000000000000000),
  (307370000, 105240000000000000000),
  (308003000, 114040000000000000000),
  (308632000, 123490000000000000000),
  (309258000, 133620000000000000000),
  (309880000, 144490000000000000000),
  (310499000, 156140000000000000000),
  (311114000, 168610000000000000000),
  (311725000, 181950000000000000000),
  (312333000, 196210000000000000000),
  (312938000, 211460000000000000000),
  (313538000, 227740000000000000000),
  (314135000, 245110000000000000000),
  (314729000, 263630000000000000000),
  (315319000, 283380000000000000000),
  (315906000, 304410000000000000000),
  (316489000, 326790000000000000000),
  (317068000, 350610000000000000000),
  (317644000, 375930000000000000000),
  (318217000, 402830000000000000000),
  (318786000, 431400000000000000000),
  (319352000, 461720000000000000000),
  (319914000, 493870000000000000000),
  (320473000, 527960000000000000000),
  (321028000, 564070000000000000000),
  (321580000, 602310000000000000000),
  (322129000, 642770000000000000000),
  (322674000, 685560000000000000000),
  (323486000, 754310000000000000000),
  (324290000, 829030000000000000000),
  (325087000, 909930000000000000000),
  (325877000, 997640000000000000000),
  (326658000, 1092400000000000000000),
  (327433000, 1194900000000000000000),
  (328200000, 1305300000000000000000),
  (328961000, 1424400000000000000000),
  (329714000, 1552600000000000000000),
  (330460000, 1690600000000000000000),
  (331199000, 1838600000000000000000),
  (331931000, 1997600000000000000000),
  (332656000, 2167900000000000000000),
  (333374000, 2350500000000000000000),
  (334085000, 2545500000000000000000),
  (334790000, 2754200000000000000000),
  (335487000, 2976700000000000000000),
  (336178000, 3214400000000000000000),
  (336862000, 3467300000000000000000),
  (337540000, 3736800000000000000000),
  (338210000, 4023100000000000000000),
  (338875000, 4327600000000000000000),
  (339533000, 4650500000000000000000),
  (340185000, 4993400000000000000000),
  (340829000, 5356200000000000000000),
  (341468000, 5740800000000000000000),
  (342310000, 6288000000000000000000),
  (343144000, 6879200000000000000000)]
def dtRows1 : List (Nat × Nat) := [
  (343967000, 7514600000000000000000),
  (344779000, 8196500000000000000000),
  (345581000, 8927300000000000000000),
  (346371000, 9709200000000000000000),
  (347151000, 10545000000000000000000),
  (347921000, 11437000000000000000000),
  (348680000, 12387000000000000000000),
  (349429000, 13398000000000000000000),
  (350167000, 14473000000000000000000),
  (350896000, 15614000000000000000000),
  (351615000, 16824000000000000000000),
  (352324000, 18105000000000000000000),
  (353023000, 19459000000000000000000),
  (353713000, 20890000000000000000000),
  (354393000, 22400000000000000000000),
  (355064000, 23991000000000000000000),
  (355726000, 25666000000000000000000),
  (356379000, 27427000000000000000000),
  (357022000, 29277000000000000000000),
  (357972000, 32228000000000000000000),
  (358900000, 35383000000000000000000),
  (359811000, 38767000000000000000000),
  (360700000, 42369000000000000000000),
  (361573000, 46216000000000000000000),
  (362426000, 50293000000000000000000),
  (363262000, 54628000000000000000000),
  (364079000, 59205000000000000000000),
  (364881000, 64052000000000000000000),
  (365663000, 69149000000000000000000),
  (366431000, 74527000000000000000000),
  (367181000, 80161000000000000000000),
  (367917000, 86084000000000000000000),
  (368635000, 92268000000000000000000),
  (369339000, 98747000000000000000000),
  (370260000, 107880000000000000000000),
  (371155000, 117530000000000000000000),
  (372025000, 127680000000000000000000),
  (372868000, 138340000000000000000000),
  (373688000, 149500000000000000000000),
  (374483000, 161150000000000000000000),
  (375255000, 173290000000000000000000),
  (376005000, 185910000000000000000000),
  (376733000, 199000000000000000000000),
  (377439000, 212550000000000000000000),
  (378462000, 233740000000000000000000),
  (379435000, 255760000000000000000000),
  (380370000, 278790000000000000000000),
  (381259000, 302500000000000000000000),
  (382113000, 327100000000000000000000),
  (382924000, 352250000000000000000000),
  (383704000, 378130000000000000000000),
  (384703000, 413960000000000000000000),
  (385642000, 450570000000000000000000),
  (386524000, 487780000000000000000000),
  (387353000, 525410000000000000000000),
  (388131000, 563280000000000000000000),
  (389206000, 619850000000000000000000),
  (390195000, 676670000000000000000000),
  (391085000, 732040000000000000000000),
  (391903000, 786770000000000000000000)]
def dtRows2 : List (Nat × Nat) := [
  (392906000, 859180000000000000000000),
  (393786000, 927910000000000000000000),
  (394557000, 992460000000000000000000),
  (395530000, 1080000000000000000000000),
  (396346000, 1159000000000000000000000),
  (397256000, 1253800000000000000000000),
  (398234000, 1363800000000000000000000),
  (399116000, 1470800000000000000000000),
  (400000000, 1586200000000000000000000),
  (401045000, 1733700000000000000000000),
  (402081000, 1892900000000000000000000),
  (403107000, 2064100000000000000000000),
  (404124000, 2248600000000000000000000),
  (405131000, 2446500000000000000000000),
  (406130000, 2659200000000000000000000),
  (407118000, 2887100000000000000000000),
  (408098000, 3131400000000000000000000),
  (409068000, 3392500000000000000000000),
  (410030000, 3672000000000000000000000),
  (410982000, 3970000000000000000000000),
  (411926000, 4288300000000000000000000),
  (412860000, 4627100000000000000000000),
  (413787000, 4988300000000000000000000),
  (414703000, 5372000000000000000000000),
  (415612000, 5780300000000000000000000),
  (416511000, 6213200000000000000000000),
  (417402000, 6672900000000000000000000),
  (418284000, 7159500000000000000000000),
  (419159000, 7675300000000000000000000),
  (420311000, 8409300000000000000000000),
  (421452000, 9202500000000000000000000),
  (422579000, 10055000000000000000000000),
  (423692000, 10970000000000000000000000),
  (424789000, 11951000000000000000000000),
  (425873000, 13000000000000000000000000),
  (426942000, 14122000000000000000000000),
  (427997000, 15319000000000000000000000),
  (429038000, 16594000000000000000000000),
  (430065000, 17952000000000000000000000),
  (431079000, 19395000000000000000000000),
  (432079000, 20926000000000000000000000),
  (433066000, 22550000000000000000000000),
  (434040000, 24269000000000000000000000),
  (435000000, 26088000000000000000000000),
  (435948000, 28008000000000000000000000),
  (436882000, 30035000000000000000000000),
  (437805000, 32170000000000000000000000),
  (438714000, 34418000000000000000000000),
  (439611000, 36781000000000000000000000),
  (440496000, 39264000000000000000000000),
  (441803000, 43222000000000000000000000),
  (443080000, 47455000000000000000000000),
  (444333000, 51994000000000000000000000),
  (445558000, 56826000000000000000000000),
  (446760000, 61984000000000000000000000),
  (447934000, 67451000000000000000000000),
  (449087000, 73262000000000000000000000),
  (450213000, 79396000000000000000000000),
  (451318000, 85892000000000000000000000),
  (452397000, 92721000000000000000000000)]
def dtRows3 : List (Nat × Nat) := [
  (453457000, 99924000000000000000000000),
  (454491000, 107470000000000000000000000),
  (455506000, 115400000000000000000000000),
  (456170000, 120890000000000000000000000),
  (457479000, 132440000000000000000000000),
  (458752000, 144680000000000000000000000),
  (459988000, 157580000000000000000000000),
  (461188000, 171170000000000000000000000),
  (462354000, 185420000000000000000000000),
  (463487000, 200340000000000000000000000),
  (464586000, 215910000000000000000000000),
  (465654000, 232130000000000000000000000),
  (466691000, 248990000000000000000000000),
  (467697000, 266470000000000000000000000),
  (468674000, 284540000000000000000000000),
  (470083000, 312670000000000000000000000),
  (471437000, 342190000000000000000000000),
  (472725000, 372720000000000000000000000),
  (473964000, 404490000000000000000000000),
  (475141000, 437070000000000000000000000),
  (476272000, 470720000000000000000000000),
  (476996000, 493550000000000000000000000),
  (478402000, 540900000000000000000000000),
  (479724000, 589350000000000000000000000),
  (480967000, 638630000000000000000000000),
  (482135000, 688490000000000000000000000),
  (483233000, 738710000000000000000000000),
  (484264000, 789050000000000000000000000),
  (485688000, 863930000000000000000000000),
  (486998000, 938760000000000000000000000),
  (488177000, 1011400000000000000000000000),
  (489262000, 1082800000000000000000000000),
  (490591000, 1177000000000000000000000000),
  (491758000, 1265900000000000000000000000),
  (493258000, 1389800000000000000000000000),
  (494096000, 1463900000000000000000000000),
  (495566000, 1603000000000000000000000000),
  (497085000, 1760000000000000000000000000),
  (498124000, 1875600000000000000000000000),
  (499374000, 2024300000000000000000000000),
  (500713000, 2195900000000000000000000000),
  (502130000, 2392700000000000000000000000),
  (503529000, 2603200000000000000000000000),
  (504910000, 2828300000000000000000000000),
  (506273000, 3068400000000000000000000000),
  (507619000, 3324400000000000000000000000),
  (508946000, 3596800000000000000000000000),
  (510257000, 3886300000000000000000000000),
  (511550000, 4193600000000000000000000000),
  (512827000, 4519500000000000000000000000),
  (514086000, 4864500000000000000000000000),
  (515329000, 5229300000000000000000000000),
  (516555000, 5614700000000000000000000000),
  (517765000, 6021200000000000000000000000),
  (518959000, 6449600000000000000000000000),
  (520137000, 6900500000000000000000000000),
  (521299000, 7374600000000000000000000000),
  (522446000, 7872500000000000000000000000),
  (524139000, 8666400000000000000000000000),
  (525794000, 9515200000000000000000000000)]
def dtRows4 : List (Nat × Nat) := [
  (527419000, 10425000000000000000000000000),
  (529007000, 11394000000000000000000000000),
  (530566000, 12428000000000000000000000000),
  (532090000, 13523000000000000000000000000),
  (533586000, 14688000000000000000000000000),
  (535047000, 15917000000000000000000000000),
  (536482000, 17218000000000000000000000000),
  (537884000, 18586000000000000000000000000),
  (539260000, 20028000000000000000000000000),
  (540603000, 21539000000000000000000000000),
  (541922000, 23126000000000000000000000000),
  (542785000, 24224000000000000000000000000),
  (544487000, 26536000000000000000000000000),
  (546142000, 28983000000000000000000000000),
  (547749000, 31564000000000000000000000000),
  (549311000, 34279000000000000000000000000),
  (550828000, 37127000000000000000000000000),
  (552302000, 40108000000000000000000000000),
  (553734000, 43219000000000000000000000000),
  (555124000, 46458000000000000000000000000),
  (556474000, 49823000000000000000000000000),
  (557785000, 53311000000000000000000000000),
  (559059000, 56918000000000000000000000000),
  (560894000, 62528000000000000000000000000),
  (562660000, 68413000000000000000000000000),
  (564339000, 74496000000000000000000000000),
  (565954000, 80825000000000000000000000000),
  (567490000, 87313000000000000000000000000),
  (568966000, 94012000000000000000000000000),
  (569911000, 98553000000000000000000000000),
  (571746000, 107970000000000000000000000000),
  (573472000, 117610000000000000000000000000),
  (575096000, 127400000000000000000000000000),
  (576621000, 137300000000000000000000000000),
  (578055000, 147280000000000000000000000000),
  (580036000, 162180000000000000000000000000),
  (581859000, 177150000000000000000000000000),
  (583501000, 191740000000000000000000000000),
  (585012000, 206170000000000000000000000000),
  (586865000, 225260000000000000000000000000),
  (588491000, 243380000000000000000000000000),
  (589917000, 260410000000000000000000000000),
  (591717000, 283490000000000000000000000000),
  (593227000, 304340000000000000000000000000),
  (594913000, 329340000000000000000000000000),
  (596725000, 358350000000000000000000000000),
  (598360000, 386610000000000000000000000000),
  (600000000, 417040000000000000000000000000),
  (601447000, 445760000000000000000000000000),
  (602875000, 475930000000000000000000000000),
  (604978000, 523900000000000000000000000000),
  (607045000, 575460000000000000000000000000),
  (609064000, 630460000000000000000000000000),
  (611049000, 689300000000000000000000000000),
  (612988000, 751790000000000000000000000000),
  (614893000, 818350000000000000000000000000),
  (616754000, 888730000000000000000000000000),
  (618582000, 963390000000000000000000000000),
  (620368000, 1042000000000000000000000000000),
  (622122000, 1125100000000000000000000000000)]
def dtRows5 : List (Nat × Nat) := [
  (623835000, 1212300000000000000000000000000),
  (625517000, 1304000000000000000000000000000),
  (627160000, 1399900000000000000000000000000),
  (628773000, 1500600000000000000000000000000),
  (630885000, 1642700000000000000000000000000),
  (632938000, 1792900000000000000000000000000),
  (634933000, 1951200000000000000000000000000),
  (636872000, 2117600000000000000000000000000),
  (638756000, 2292100000000000000000000000000),
  (640586000, 2474500000000000000000000000000),
  (642364000, 2664800000000000000000000000000),
  (644091000, 2862800000000000000000000000000),
  (645769000, 3068300000000000000000000000000),
  (647398000, 3281100000000000000000000000000),
  (648981000, 3501100000000000000000000000000),
  (651275000, 3844800000000000000000000000000),
  (653458000, 4201300000000000000000000000000),
  (655558000, 4573400000000000000000000000000),
  (657555000, 4956000000000000000000000000000),
  (659476000, 5352100000000000000000000000000),
  (661303000, 5756400000000000000000000000000),
  (663059000, 6172000000000000000000000000000),
  (665309000, 6746100000000000000000000000000),
  (667426000, 7331700000000000000000000000000),
  (669417000, 7925800000000000000000000000000),
  (671288000, 8525500000000000000000000000000),
  (673048000, 9127900000000000000000000000000),
  (675503000, 10036000000000000000000000000000),
  (677716000, 10926000000000000000000000000000),
  (679752000, 11811000000000000000000000000000),
  (682173000, 12951000000000000000000000000000),
  (684376000, 14077000000000000000000000000000),
  (686310000, 15141000000000000000000000000000),
  (688799000, 16623000000000000000000000000000),
  (690190000, 17508000000000000000000000000000),
  (692629000, 19171000000000000000000000000000),
  (695154000, 21047000000000000000000000000000),
  (696881000, 22428000000000000000000000000000),
  (698959000, 24203000000000000000000000000000),
  (701462000, 26516000000000000000000000000000),
  (703615000, 28671000000000000000000000000000),
  (705730000, 30947000000000000000000000000000),
  (707796000, 33334000000000000000000000000000),
  (709825000, 35846000000000000000000000000000),
  (711807000, 38470000000000000000000000000000),
  (713753000, 41222000000000000000000000000000),
  (716302000, 45107000000000000000000000000000),
  (718780000, 49211000000000000000000000000000),
  (721189000, 53535000000000000000000000000000),
  (723530000, 58077000000000000000000000000000),
  (725805000, 62837000000000000000000000000000),
  (728016000, 67811000000000000000000000000000),
  (730164000, 72996000000000000000000000000000),
  (732252000, 78389000000000000000000000000000),
  (734279000, 83985000000000000000000000000000),
  (736249000, 89778000000000000000000000000000),
  (739105000, 98848000000000000000000000000000),
  (741825000, 108280000000000000000000000000000),
  (744441000, 118140000000000000000000000000000),
  (746930000, 128300000000000000000000000000000)]
def dtRows6 : List (Nat × Nat) := [
  (749325000, 138840000000000000000000000000000),
  (751603000, 149620000000000000000000000000000),
  (753793000, 160730000000000000000000000000000),
  (756601000, 176090000000000000000000000000000),
  (759243000, 191800000000000000000000000000000),
  (761728000, 207760000000000000000000000000000),
  (764066000, 223910000000000000000000000000000),
  (766264000, 240150000000000000000000000000000),
  (769300000, 264430000000000000000000000000000),
  (772097000, 288800000000000000000000000000000),
  (774617000, 312550000000000000000000000000000),
  (776937000, 336020000000000000000000000000000),
  (779783000, 367070000000000000000000000000000),
  (782282000, 396530000000000000000000000000000),
  (784475000, 424200000000000000000000000000000),
  (787242000, 461690000000000000000000000000000),
  (789566000, 495550000000000000000000000000000),
  (792162000, 536110000000000000000000000000000),
  (794952000, 583170000000000000000000000000000),
  (797472000, 628970000000000000000000000000000),
  (800000000, 678280000000000000000000000000000),
  (802950000, 740400000000000000000000000000000),
  (805818000, 805870000000000000000000000000000),
  (808607000, 874680000000000000000000000000000),
  (811317000, 946800000000000000000000000000000),
  (813951000, 1022200000000000000000000000000000),
  (816511000, 1100800000000000000000000000000000),
  (818999000, 1182600000000000000000000000000000),
  (821417000, 1267500000000000000000000000000000),
  (823765000, 1355400000000000000000000000000000),
  (827154000, 1492400000000000000000000000000000),
  (830416000, 1636300000000000000000000000000000),
  (833521000, 1785300000000000000000000000000000),
  (836509000, 1940600000000000000000000000000000),
  (839353000, 2100000000000000000000000000000000),
  (842087000, 2264700000000000000000000000000000),
  (844689000, 2432700000000000000000000000000000),
  (847191000, 2605000000000000000000000000000000),
  (850399000, 2842700000000000000000000000000000),
  (853417000, 3084800000000000000000000000000000),
  (856257000, 3329900000000000000000000000000000),
  (858927000, 3577000000000000000000000000000000),
  (861439000, 3824800000000000000000000000000000),
  (864944000, 4197600000000000000000000000000000),
  (868105000, 4562600000000000000000000000000000),
  (871014000, 4924600000000000000000000000000000),
  (874474000, 5389800000000000000000000000000000),
  (877625000, 5848900000000000000000000000000000),
  (880391000, 6281800000000000000000000000000000),
  (883954000, 6883400000000000000000000000000000),
  (885944000, 7242400000000000000000000000000000),
  (889437000, 7915200000000000000000000000000000),
  (893054000, 8672900000000000000000000000000000),
  (895529000, 9229600000000000000000000000000000),
  (898507000, 9943900000000000000000000000000000),
  (901483000, 10709000000000000000000000000000000),
  (904409000, 11514000000000000000000000000000000),
  (907253000, 12351000000000000000000000000000000),
  (910017000, 13217000000000000000000000000000000),
  (912703000, 14114000000000000000000000000000000)]
def dtRows7 : List (Nat × Nat) := [
  (916598000, 15515000000000000000000000000000000),
  (920309000, 16969000000000000000000000000000000),
  (923879000, 18487000000000000000000000000000000),
  (927278000, 20049000000000000000000000000000000),
  (930548000, 21667000000000000000000000000000000),
  (933661000, 23319000000000000000000000000000000),
  (936654000, 25017000000000000000000000000000000),
  (940493000, 27364000000000000000000000000000000),
  (944106000, 29759000000000000000000000000000000),
  (947506000, 32189000000000000000000000000000000),
  (950704000, 34643000000000000000000000000000000),
  (953713000, 37109000000000000000000000000000000),
  (957914000, 40825000000000000000000000000000000),
  (961702000, 44471000000000000000000000000000000),
  (965192000, 48094000000000000000000000000000000),
  (969341000, 52760000000000000000000000000000000),
  (973122000, 57374000000000000000000000000000000),
  (976442000, 61731000000000000000000000000000000),
  (980719000, 67799000000000000000000000000000000),
  (983108000, 71426000000000000000000000000000000),
  (987304000, 78234000000000000000000000000000000),
  (991650000, 85917000000000000000000000000000000),
  (994624000, 91572000000000000000000000000000000),
  (998205000, 98839000000000000000000000000000000),
  (1001350000, 105670000000000000000000000000000000),
  (1005420000, 115140000000000000000000000000000000),
  (1009470000, 125360000000000000000000000000000000),
  (1013520000, 136410000000000000000000000000000000),
  (1017560000, 148320000000000000000000000000000000),
  (1021600000, 161170000000000000000000000000000000),
  (1025620000, 175010000000000000000000000000000000),
  (1029640000, 189930000000000000000000000000000000),
  (1033650000, 205980000000000000000000000000000000),
  (1037650000, 223250000000000000000000000000000000),
  (1041640000, 241800000000000000000000000000000000),
  (1045630000, 261750000000000000000000000000000000),
  (1049600000, 283150000000000000000000000000000000),
  (1053570000, 306120000000000000000000000000000000),
  (1057530000, 330750000000000000000000000000000000),
  (1061490000, 357150000000000000000000000000000000),
  (1065430000, 385410000000000000000000000000000000),
  (1069370000, 415690000000000000000000000000000000),
  (1073290000, 448060000000000000000000000000000000),
  (1077210000, 482690000000000000000000000000000000),
  (1081120000, 519670000000000000000000000000000000),
  (1085020000, 559190000000000000000000000000000000),
  (1088910000, 601350000000000000000000000000000000),
  (1092790000, 646350000000000000000000000000000000),
  (1096660000, 694310000000000000000000000000000000),
  (1100530000, 745450000000000000000000000000000000),
  (1104380000, 799880000000000000000000000000000000),
  (1108230000, 857860000000000000000000000000000000),
  (1113350000, 941110000000000000000000000000000000),
  (1118460000, 1031500000000000000000000000000000000),
  (1123550000, 1129400000000000000000000000000000000),
  (1128620000, 1235600000000000000000000000000000000),
  (1133680000, 1350500000000000000000000000000000000),
  (1138720000, 1474700000000000000000000000000000000),
  (1143740000, 1609000000000000000000000000000000000),
  (1148740000, 1753900000000000000000000000000000000)]
def dtRows8 : List (Nat × Nat) := [
  (1153730000, 1910200000000000000000000000000000000),
  (1158700000, 2078600000000000000000000000000000000),
  (1163650000, 2260000000000000000000000000000000000),
  (1168590000, 2455200000000000000000000000000000000),
  (1173500000, 2665000000000000000000000000000000000),
  (1178400000, 2890300000000000000000000000000000000),
  (1183280000, 3132200000000000000000000000000000000),
  (1188140000, 3391600000000000000000000000000000000),
  (1192990000, 3669600000000000000000000000000000000),
  (1197810000, 3967200000000000000000000000000000000),
  (1202620000, 4285700000000000000000000000000000000),
  (1207410000, 4626300000000000000000000000000000000),
  (1212180000, 4990100000000000000000000000000000000),
  (1216930000, 5378500000000000000000000000000000000),
  (1221660000, 5792900000000000000000000000000000000),
  (1226370000, 6234600000000000000000000000000000000),
  (1231070000, 6705200000000000000000000000000000000),
  (1235750000, 7206200000000000000000000000000000000),
  (1240400000, 7739100000000000000000000000000000000),
  (1245040000, 8305700000000000000000000000000000000),
  (1249660000, 8907600000000000000000000000000000000),
  (1254260000, 9546600000000000000000000000000000000),
  (1258840000, 10225000000000000000000000000000000000),
  (1263400000, 10943000000000000000000000000000000000),
  (1267940000, 11705000000000000000000000000000000000),
  (1272470000, 12512000000000000000000000000000000000),
  (1276970000, 13365000000000000000000000000000000000),
  (1283680000, 14737000000000000000000000000000000000),
  (1290360000, 16229000000000000000000000000000000000),
  (1296990000, 17845000000000000000000000000000000000),
  (1303580000, 19598000000000000000000000000000000000),
  (1310120000, 21492000000000000000000000000000000000),
  (1316620000, 23540000000000000000000000000000000000),
  (1323070000, 25747000000000000000000000000000000000),
  (1329480000, 28129000000000000000000000000000000000),
  (1335840000, 30688000000000000000000000000000000000),
  (1342170000, 33443000000000000000000000000000000000),
  (1348440000, 36397000000000000000000000000000000000),
  (1354670000, 39569000000000000000000000000000000000),
  (1360860000, 42962000000000000000000000000000000000),
  (1367000000, 46598000000000000000000000000000000000),
  (1373100000, 50478000000000000000000000000000000000),
  (1379150000, 54625000000000000000000000000000000000),
  (1385160000, 59042000000000000000000000000000000000),
  (1391130000, 63753000000000000000000000000000000000),
  (1397040000, 68760000000000000000000000000000000000),
  (1402920000, 74090000000000000000000000000000000000),
  (1408750000, 79742000000000000000000000000000000000),
  (1414540000, 85747000000000000000000000000000000000),
  (1420270000, 92102000000000000000000000000000000000),
  (1425980000, 98840000000000000000000000000000000000),
  (1433530000, 108470000000000000000000000000000000000),
  (1441010000, 118830000000000000000000000000000000000),
  (1448410000, 129960000000000000000000000000000000000),
  (1455730000, 141900000000000000000000000000000000000),
  (1462970000, 154700000000000000000000000000000000000),
  (1470140000, 168380000000000000000000000000000000000),
  (1477230000, 182990000000000000000000000000000000000),
  (1484240000, 198570000000000000000000000000000000000),
  (1491170000, 215150000000000000000000000000000000000)]
def dtRows9 : List (Nat × Nat) := [
  (1498030000, 232790000000000000000000000000000000000),
  (1504810000, 251520000000000000000000000000000000000),
  (1511510000, 271370000000000000000000000000000000000),
  (1518140000, 292390000000000000000000000000000000000),
  (1524690000, 314620000000000000000000000000000000000),
  (1531170000, 338100000000000000000000000000000000000),
  (1537570000, 362870000000000000000000000000000000000),
  (1543900000, 388960000000000000000000000000000000000),
  (1550160000, 416410000000000000000000000000000000000),
  (1556340000, 445260000000000000000000000000000000000),
  (1565470000, 491180000000000000000000000000000000000),
  (1574460000, 540570000000000000000000000000000000000),
  (1583270000, 593280000000000000000000000000000000000),
  (1591940000, 649710000000000000000000000000000000000),
  (1600430000, 709650000000000000000000000000000000000),
  (1608790000, 773510000000000000000000000000000000000),
  (1616980000, 841050000000000000000000000000000000000),
  (1625030000, 912700000000000000000000000000000000000),
  (1632920000, 988150000000000000000000000000000000000),
  (1640680000, 1067900000000000000000000000000000000000),
  (1648270000, 1151500000000000000000000000000000000000),
  (1655740000, 1239500000000000000000000000000000000000),
  (1663050000, 1331400000000000000000000000000000000000),
  (1670230000, 1427800000000000000000000000000000000000),
  (1679670000, 1563900000000000000000000000000000000000),
  (1688850000, 1707700000000000000000000000000000000000),
  (1697800000, 1859100000000000000000000000000000000000),
  (1706510000, 2018000000000000000000000000000000000000),
  (1715000000, 2184600000000000000000000000000000000000),
  (1723260000, 2358500000000000000000000000000000000000),
  (1731300000, 2539700000000000000000000000000000000000),
  (1739120000, 2728000000000000000000000000000000000000),
  (1746730000, 2923300000000000000000000000000000000000),
  (1754140000, 3125400000000000000000000000000000000000),
  (1764900000, 3441400000000000000000000000000000000000),
  (1775170000, 3769500000000000000000000000000000000000),
  (1785070000, 4112300000000000000000000000000000000000),
  (1794510000, 4465100000000000000000000000000000000000),
  (1803600000, 4830700000000000000000000000000000000000),
  (1812270000, 5203900000000000000000000000000000000000),
  (1820620000, 5587800000000000000000000000000000000000),
  (1831340000, 6118300000000000000000000000000000000000),
  (1841450000, 6659600000000000000000000000000000000000),
  (1850980000, 7208800000000000000000000000000000000000),
  (1859960000, 7763300000000000000000000000000000000000),
  (1868420000, 8320300000000000000000000000000000000000),
  (1880250000, 9159700000000000000000000000000000000000),
  (1890940000, 9982700000000000000000000000000000000000),
  (1900800000, 10800000000000000000000000000000000000000),
  (1912540000, 11853000000000000000000000000000000000000),
  (1923260000, 12892000000000000000000000000000000000000),
  (1932690000, 13874000000000000000000000000000000000000),
  (1944860000, 15239000000000000000000000000000000000000),
  (1951670000, 16055000000000000000000000000000000000000),
  (1963640000, 17584000000000000000000000000000000000000),
  (1976060000, 19308000000000000000000000000000000000000),
  (1984580000, 20576000000000000000000000000000000000000),
  (1994850000, 22203000000000000000000000000000000000000),
  (2006350000, 24163000000000000000000000000000000000000),
  (2019000000, 26499000000000000000000000000000000000000)]
def dtRows10 : List (Nat × Nat) := [
  (2031530000, 29009000000000000000000000000000000000000),
  (2043940000, 31703000000000000000000000000000000000000),
  (2056230000, 34590000000000000000000000000000000000000),
  (2068400000, 37677000000000000000000000000000000000000),
  (2080460000, 40975000000000000000000000000000000000000),
  (2092390000, 44492000000000000000000000000000000000000),
  (2104200000, 48237000000000000000000000000000000000000),
  (2115900000, 52218000000000000000000000000000000000000),
  (2127470000, 56445000000000000000000000000000000000000),
  (2138920000, 60927000000000000000000000000000000000000),
  (2150260000, 65671000000000000000000000000000000000000),
  (2161480000, 70688000000000000000000000000000000000000),
  (2172580000, 75986000000000000000000000000000000000000),
  (2183560000, 81572000000000000000000000000000000000000),
  (2194430000, 87456000000000000000000000000000000000000),
  (2205170000, 93645000000000000000000000000000000000000),
  (2215810000, 100148000000000000000000000000000000000000),
  (2231550000, 110521000000000000000000000000000000000000),
  (2247000000, 121613000000000000000000000000000000000000),
  (2262240000, 133508000000000000000000000000000000000000),
  (2277170000, 146164000000000000000000000000000000000000),
  (2291900000, 159670000000000000000000000000000000000000),
  (2306330000, 173974000000000000000000000000000000000000),
  (2320550000, 189169000000000000000000000000000000000000),
  (2334480000, 205191000000000000000000000000000000000000),
  (2348210000, 222138000000000000000000000000000000000000),
  (2361660000, 239934000000000000000000000000000000000000),
  (2374910000, 258681000000000000000000000000000000000000),
  (2387880000, 278290000000000000000000000000000000000000),
  (2400650000, 298869000000000000000000000000000000000000),
  (2417430000, 327943000000000000000000000000000000000000),
  (2433800000, 358685000000000000000000000000000000000000),
  (2449760000, 391090000000000000000000000000000000000000),
  (2465320000, 425149000000000000000000000000000000000000),
  (2480490000, 460844000000000000000000000000000000000000),
  (2495270000, 498154000000000000000000000000000000000000),
  (2509680000, 537048000000000000000000000000000000000000),
  (2523710000, 577492000000000000000000000000000000000000),
  (2537380000, 619446000000000000000000000000000000000000),
  (2550700000, 662865000000000000000000000000000000000000),
  (2570070000, 730811000000000000000000000000000000000000),
  (2588570000, 801386000000000000000000000000000000000000),
  (2606440000, 875133000000000000000000000000000000000000),
  (2623500000, 951054000000000000000000000000000000000000),
  (2639950000, 1029720000000000000000000000000000000000000),
  (2655660000, 1110060000000000000000000000000000000000000),
  (2670800000, 1192680000000000000000000000000000000000000),
  (2690270000, 1306860000000000000000000000000000000000000),
  (2708650000, 1423350000000000000000000000000000000000000),
  (2726000000, 1541530000000000000000000000000000000000000),
  (2742370000, 1660800000000000000000000000000000000000000),
  (2757800000, 1780600000000000000000000000000000000000000),
  (2779420000, 1961080000000000000000000000000000000000000),
  (2798970000, 2137940000000000000000000000000000000000000),
  (2817030000, 2313560000000000000000000000000000000000000),
  (2838580000, 2539460000000000000000000000000000000000000),
  (2858270000, 2762520000000000000000000000000000000000000),
  (2875620000, 2972940000000000000000000000000000000000000),
  (2898030000, 3265490000000000000000000000000000000000000),
  (2910580000, 3440090000000000000000000000000000000000000)]
def dtRows11 : List (Nat × Nat) := [
  (2932680000, 3767320000000000000000000000000000000000000),
  (2955650000, 4135800000000000000000000000000000000000000),
  (2971410000, 4406490000000000000000000000000000000000000),
  (2990440000, 4753670000000000000000000000000000000000000),
  (3013520000, 5206810000000000000000000000000000000000000),
  (3033480000, 5628940000000000000000000000000000000000000),
  (3053150000, 6073800000000000000000000000000000000000000),
  (3072440000, 6539250000000000000000000000000000000000000),
  (3091450000, 7027850000000000000000000000000000000000000),
  (3116440000, 7718330000000000000000000000000000000000000),
  (3140850000, 8448560000000000000000000000000000000000000),
  (3164670000, 9218440000000000000000000000000000000000000),
  (3187920000, 10027700000000000000000000000000000000000000),
  (3210610000, 10875800000000000000000000000000000000000000),
  (3232740000, 11762300000000000000000000000000000000000000),
  (3254330000, 12686400000000000000000000000000000000000000),
  (3275370000, 13647300000000000000000000000000000000000000),
  (3295900000, 14643900000000000000000000000000000000000000),
  (3315900000, 15675100000000000000000000000000000000000000),
  (3345020000, 17288600000000000000000000000000000000000000),
  (3372890000, 18963800000000000000000000000000000000000000),
  (3399810000, 20713800000000000000000000000000000000000000),
  (3425550000, 22514500000000000000000000000000000000000000),
  (3450400000, 24379600000000000000000000000000000000000000),
  (3474140000, 26283500000000000000000000000000000000000000),
  (3497040000, 28240500000000000000000000000000000000000000),
  (3526540000, 30943300000000000000000000000000000000000000),
  (3554410000, 33698900000000000000000000000000000000000000),
  (3580750000, 36492500000000000000000000000000000000000000),
  (3605610000, 39310100000000000000000000000000000000000000),
  (3629080000, 42138100000000000000000000000000000000000000),
  (3661980000, 46394700000000000000000000000000000000000000),
  (3691780000, 50562000000000000000000000000000000000000000),
  (3719340000, 54695900000000000000000000000000000000000000),
  (3753320000, 60187000000000000000000000000000000000000000),
  (3783300000, 65416500000000000000000000000000000000000000),
  (3809730000, 70342800000000000000000000000000000000000000),
  (3843240000, 77039100000000000000000000000000000000000000),
  (3871510000, 83103300000000000000000000000000000000000000),
  (3903240000, 90387800000000000000000000000000000000000000),
  (3937530000, 98861300000000000000000000000000000000000000),
  (3968640000, 107125000000000000000000000000000000000000000),
  (4000000000, 116040000000000000000000000000000000000000000),
  (4027990000, 124534000000000000000000000000000000000000000),
  (4068580000, 137785000000000000000000000000000000000000000),
  (4107880000, 151730000000000000000000000000000000000000000),
  (4145500000, 166179000000000000000000000000000000000000000),
  (4181880000, 181242000000000000000000000000000000000000000),
  (4216690000, 196712000000000000000000000000000000000000000),
  (4250320000, 212705000000000000000000000000000000000000000),
  (4271950000, 223558000000000000000000000000000000000000000),
  (4314180000, 246090000000000000000000000000000000000000000),
  (4354140000, 269145000000000000000000000000000000000000000),
  (4391940000, 292596000000000000000000000000000000000000000),
  (4427680000, 316320000000000000000000000000000000000000000),
  (4461450000, 340197000000000000000000000000000000000000000),
  (4508370000, 375865000000000000000000000000000000000000000),
  (4551850000, 411665000000000000000000000000000000000000000),
  (4591260000, 446526000000000000000000000000000000000000000),
  (4627720000, 480942000000000000000000000000000000000000000)]
def dtRows12 : List (Nat × Nat) := [
  (4672690000, 526419000000000000000000000000000000000000000),
  (4712400000, 569500000000000000000000000000000000000000000),
  (4763860000, 629652000000000000000000000000000000000000000),
  (4792760000, 665685000000000000000000000000000000000000000),
  (4843750000, 733446000000000000000000000000000000000000000),
  (4896900000, 810074000000000000000000000000000000000000000),
  (4933480000, 866563000000000000000000000000000000000000000),
  (4977730000, 939229000000000000000000000000000000000000000),
  (5028570000, 1028970000000000000000000000000000000000000000),
  (5083510000, 1133870000000000000000000000000000000000000000),
  (5136450000, 1243150000000000000000000000000000000000000000),
  (5186580000, 1354500000000000000000000000000000000000000000),
  (5234020000, 1467310000000000000000000000000000000000000000),
  (5278890000, 1581000000000000000000000000000000000000000000),
  (5321300000, 1695040000000000000000000000000000000000000000),
  (5380880000, 1866520000000000000000000000000000000000000000),
  (5434940000, 2034210000000000000000000000000000000000000000),
  (5485030000, 2200370000000000000000000000000000000000000000),
  (5546900000, 2420790000000000000000000000000000000000000000),
  (5601610000, 2630410000000000000000000000000000000000000000),
  (5649930000, 2827610000000000000000000000000000000000000000),
  (5711290000, 3095250000000000000000000000000000000000000000),
  (5763160000, 3337240000000000000000000000000000000000000000),
  (5821480000, 3627430000000000000000000000000000000000000000),
  (5884620000, 3964330000000000000000000000000000000000000000),
  (5942030000, 4292260000000000000000000000000000000000000000),
  (6000000000, 4645300000000000000000000000000000000000000000),
  (6058090000, 5023020000000000000000000000000000000000000000),
  (6113050000, 5402920000000000000000000000000000000000000000),
  (6189550000, 5969870000000000000000000000000000000000000000),
  (6260590000, 6538260000000000000000000000000000000000000000),
  (6325080000, 7091140000000000000000000000000000000000000000),
  (6384830000, 7636330000000000000000000000000000000000000000),
  (6458670000, 8355840000000000000000000000000000000000000000),
  (6523980000, 9036500000000000000000000000000000000000000000),
  (6608760000, 9985370000000000000000000000000000000000000000),
  (6656440000, 10552900000000000000000000000000000000000000000),
  (6740720000, 11618600000000000000000000000000000000000000000),
  (6828740000, 12821300000000000000000000000000000000000000000),
  (6889420000, 13706300000000000000000000000000000000000000000),
  (6962940000, 14842700000000000000000000000000000000000000000),
  (7029270000, 15931700000000000000000000000000000000000000000),
  (7114110000, 17417600000000000000000000000000000000000000000),
  (7191170000, 18859900000000000000000000000000000000000000000),
  (7262600000, 20279500000000000000000000000000000000000000000),
  (7350930000, 22149100000000000000000000000000000000000000000),
  (7429090000, 23914100000000000000000000000000000000000000000),
  (7530620000, 26369000000000000000000000000000000000000000000),
  (7638100000, 29177800000000000000000000000000000000000000000),
  (7727010000, 31673000000000000000000000000000000000000000000),
  (7823420000, 34563000000000000000000000000000000000000000000),
  (7911220000, 37369100000000000000000000000000000000000000000),
  (8029500000, 41427600000000000000000000000000000000000000000),
  (8114920000, 44570400000000000000000000000000000000000000000),
  (8220610000, 48710200000000000000000000000000000000000000000),
  (8314220000, 52618300000000000000000000000000000000000000000),
  (8435910000, 58054100000000000000000000000000000000000000000),
  (8564860000, 64273300000000000000000000000000000000000000000),
  (8671630000, 69797700000000000000000000000000000000000000000),
  (8787510000, 76195000000000000000000000000000000000000000000)]
def dtRows13 : List (Nat × Nat) := [
  (8893120000, 82405400000000000000000000000000000000000000000),
  (9000000000, 89074000000000000000000000000000000000000000000),
  (9119310000, 97015200000000000000000000000000000000000000000),
  (9271640000, 107918000000000000000000000000000000000000000000),
  (9401080000, 117887000000000000000000000000000000000000000000),
  (9547360000, 129968000000000000000000000000000000000000000000),
  (9700600000, 143594000000000000000000000000000000000000000000),
  (9806480000, 153614000000000000000000000000000000000000000000),
  (9935070000, 166472000000000000000000000000000000000000000000),
  (10059700000, 179705000000000000000000000000000000000000000000),
  (10225900000, 198564000000000000000000000000000000000000000000),
  (10402300000, 220145000000000000000000000000000000000000000000),
  (10548600000, 239317000000000000000000000000000000000000000000),
  (10707600000, 261517000000000000000000000000000000000000000000),
  (10852800000, 283066000000000000000000000000000000000000000000),
  (11000000000, 306200000000000000000000000000000000000000000000),
  (11173300000, 335274000000000000000000000000000000000000000000),
  (11320500000, 361490000000000000000000000000000000000000000000),
  (11486700000, 392837000000000000000000000000000000000000000000),
  (11667400000, 429108000000000000000000000000000000000000000000),
  (11888100000, 476572000000000000000000000000000000000000000000),
  (12057900000, 515644000000000000000000000000000000000000000000),
  (12226100000, 556673000000000000000000000000000000000000000000),
  (12434900000, 610789000000000000000000000000000000000000000000),
  (12620600000, 661936000000000000000000000000000000000000000000),
  (12862900000, 733144000000000000000000000000000000000000000000),
  (13120800000, 814677000000000000000000000000000000000000000000),
  (13335300000, 887128000000000000000000000000000000000000000000),
  (13569000000, 971036000000000000000000000000000000000000000000),
  (13782800000, 1052480000000000000000000000000000000000000000000),
  (14000000000, 1139900000000000000000000000000000000000000000000),
  (14235600000, 1241050000000000000000000000000000000000000000000),
  (14537700000, 1379470000000000000000000000000000000000000000000),
  (14795400000, 1505590000000000000000000000000000000000000000000),
  (15087800000, 1657850000000000000000000000000000000000000000000),
  (15310800000, 1780760000000000000000000000000000000000000000000),
  (15651600000, 1980070000000000000000000000000000000000000000000),
  (16000000000, 2198600000000000000000000000000000000000000000000),
  (16342200000, 2430340000000000000000000000000000000000000000000),
  (16634300000, 2640370000000000000000000000000000000000000000000),
  (16965700000, 2892690000000000000000000000000000000000000000000),
  (17328100000, 3185980000000000000000000000000000000000000000000),
  (17660800000, 3471610000000000000000000000000000000000000000000),
  (18000000000, 3779100000000000000000000000000000000000000000000),
  (18450000000, 4217490000000000000000000000000000000000000000000),
  (18825900000, 4607330000000000000000000000000000000000000000000),
  (19237100000, 5058960000000000000000000000000000000000000000000),
  (19742400000, 5650510000000000000000000000000000000000000000000),
  (20000000000, 5967800000000000000000000000000000000000000000000),
  (20482300000, 6597410000000000000000000000000000000000000000000),
  (20851600000, 7105970000000000000000000000000000000000000000000),
  (21418100000, 7931080000000000000000000000000000000000000000000),
  (22000000000, 8835900000000000000000000000000000000000000000000),
  (22668000000, 9959790000000000000000000000000000000000000000000),
  (23135000000, 10793200000000000000000000000000000000000000000000),
  (23708100000, 11869800000000000000000000000000000000000000000000),
  (24241300000, 12930800000000000000000000000000000000000000000000),
  (24855300000, 14226100000000000000000000000000000000000000000000),
  (25612700000, 15921400000000000000000000000000000000000000000000),
  (26242000000, 17419100000000000000000000000000000000000000000000)]
def dtRows14 : List (Nat × Nat) := [
  (26856800000, 18967100000000000000000000000000000000000000000000),
  (27613600000, 20972700000000000000000000000000000000000000000000),
  (28242500000, 22731600000000000000000000000000000000000000000000),
  (29233800000, 25683000000000000000000000000000000000000000000000),
  (30000000000, 28096000000000000000000000000000000000000000000000),
  (35000000000, 47073000000000000000000000000000000000000000000000),
  (40000000000, 71636000000000000000000000000000000000000000000000),
  (45000000000, 101730000000000000000000000000000000000000000000000),
  (50000000000, 137020000000000000000000000000000000000000000000000),
  (55000000000, 176860000000000000000000000000000000000000000000000),
  (60000000000, 220210000000000000000000000000000000000000000000000),
  (70000000000, 311340000000000000000000000000000000000000000000000),
  (75000000000, 355350000000000000000000000000000000000000000000000),
  (80000000000, 395710000000000000000000000000000000000000000000000),
  (85000000000, 430680000000000000000000000000000000000000000000000),
  (90000000000, 459020000000000000000000000000000000000000000000000),
  (95000000000, 480050000000000000000000000000000000000000000000000),
  (100000000000, 493700000000000000000000000000000000000000000000000),
  (102000000000, 497180000000000000000000000000000000000000000000000),
  (104000000000, 499590000000000000000000000000000000000000000000000),
  (108000000000, 501420000000000000000000000000000000000000000000000),
  (112000000000, 499690000000000000000000000000000000000000000000000),
  (114000000000, 497660000000000000000000000000000000000000000000000),
  (120000000000, 487690000000000000000000000000000000000000000000000),
  (125000000000, 475920000000000000000000000000000000000000000000000),
  (130000000000, 461940000000000000000000000000000000000000000000000),
  (140000000000, 430270000000000000000000000000000000000000000000000),
  (150000000000, 397040000000000000000000000000000000000000000000000),
  (160000000000, 364750000000000000000000000000000000000000000000000),
  (170000000000, 334650000000000000000000000000000000000000000000000),
  (180000000000, 307230000000000000000000000000000000000000000000000),
  (190000000000, 282560000000000000000000000000000000000000000000000),
  (200000000000, 260510000000000000000000000000000000000000000000000),
  (220000000000, 223320000000000000000000000000000000000000000000000),
  (240000000000, 193690000000000000000000000000000000000000000000000),
  (260000000000, 169850000000000000000000000000000000000000000000000),
  (280000000000, 150460000000000000000000000000000000000000000000000),
  (300000000000, 134480000000000000000000000000000000000000000000000),
  (320000000000, 121160000000000000000000000000000000000000000000000),
  (340000000000, 109940000000000000000000000000000000000000000000000),
  (360000000000, 100390000000000000000000000000000000000000000000000),
  (380000000000, 92182000000000000000000000000000000000000000000000),
  (400000000000, 85074000000000000000000000000000000000000000000000),
  (420000000000, 78870000000000000000000000000000000000000000000000),
  (440000000000, 73420000000000000000000000000000000000000000000000),
  (460000000000, 68600000000000000000000000000000000000000000000000),
  (480000000000, 64315000000000000000000000000000000000000000000000),
  (500000000000, 60485000000000000000000000000000000000000000000000),
  (550000000000, 52504000000000000000000000000000000000000000000000),
  (600000000000, 46249000000000000000000000000000000000000000000000),
  (650000000000, 41240000000000000000000000000000000000000000000000),
  (700000000000, 37157000000000000000000000000000000000000000000000),
  (750000000000, 33778000000000000000000000000000000000000000000000),
  (800000000000, 30944000000000000000000000000000000000000000000000),
  (850000000000, 28541000000000000000000000000000000000000000000000),
  (900000000000, 26483000000000000000000000000000000000000000000000),
  (950000000000, 24705000000000000000000000000000000000000000000000),
  (1000000000000, 23158000000000000000000000000000000000000000000000),
  (1100000000000, 20607000000000000000000000000000000000000000000000),
  (1200000000000, 18603000000000000000000000000000000000000000000000)]
def dtRows15 : List (Nat × Nat) := [
  (1300000000000, 16999000000000000000000000000000000000000000000000),
  (1400000000000, 15695000000000000000000000000000000000000000000000),
  (1500000000000, 14620000000000000000000000000000000000000000000000),
  (1600000000000, 13725000000000000000000000000000000000000000000000),
  (1700000000000, 12971000000000000000000000000000000000000000000000),
  (1800000000000, 12333000000000000000000000000000000000000000000000),
  (1900000000000, 11788000000000000000000000000000000000000000000000),
  (2000000000000, 11320000000000000000000000000000000000000000000000),
  (2100000000000, 10916000000000000000000000000000000000000000000000),
  (2200000000000, 10567000000000000000000000000000000000000000000000),
  (2300000000000, 10263000000000000000000000000000000000000000000000),
  (2400000000000, 9999500000000000000000000000000000000000000000000),
  (2500000000000, 9769700000000000000000000000000000000000000000000),
  (2600000000000, 9569500000000000000000000000000000000000000000000),
  (2700000000000, 9395200000000000000000000000000000000000000000000),
  (2800000000000, 9243800000000000000000000000000000000000000000000),
  (3000000000000, 8999200000000000000000000000000000000000000000000),
  (3200000000000, 8818400000000000000000000000000000000000000000000),
  (3400000000000, 8687700000000000000000000000000000000000000000000),
  (3600000000000, 8597500000000000000000000000000000000000000000000),
  (3800000000000, 8526200000000000000000000000000000000000000000000),
  (4800000000000, 8152300000000000000000000000000000000000000000000),
  (5200000000000, 7950900000000000000000000000000000000000000000000),
  (5800000000000, 7569500000000000000000000000000000000000000000000),
  (6600000000000, 7044200000000000000000000000000000000000000000000),
  (7000000000000, 6797900000000000000000000000000000000000000000000),
  (8000000000000, 6106900000000000000000000000000000000000000000000),
  (8500000000000, 5789700000000000000000000000000000000000000000000),
  (9000000000000, 5539000000000000000000000000000000000000000000000),
  (9500000000000, 5325000000000000000000000000000000000000000000000),
  (10250000000000, 5053100000000000000000000000000000000000000000000),
  (11400000000000, 4682300000000000000000000000000000000000000000000),
  (12000000000000, 4508000000000000000000000000000000000000000000000),
  (13000000000000, 4247900000000000000000000000000000000000000000000),
  (13360000000000, 4160300000000000000000000000000000000000000000000),
  (14000000000000, 4032300000000000000000000000000000000000000000000),
  (14500000000000, 3936300000000000000000000000000000000000000000000),
  (15500000000000, 3723500000000000000000000000000000000000000000000),
  (16000000000000, 3623500000000000000000000000000000000000000000000),
  (16500000000000, 3533200000000000000000000000000000000000000000000),
  (17000000000000, 3459100000000000000000000000000000000000000000000),
  (18000000000000, 3345500000000000000000000000000000000000000000000),
  (21000000000000, 3048400000000000000000000000000000000000000000000),
  (23000000000000, 2848400000000000000000000000000000000000000000000),
  (25000000000000, 2636600000000000000000000000000000000000000000000),
  (26500000000000, 2487600000000000000000000000000000000000000000000),
  (28000000000000, 2349800000000000000000000000000000000000000000000),
  (29170000000000, 2251000000000000000000000000000000000000000000000),
  (32000000000000, 2036700000000000000000000000000000000000000000000),
  (36000000000000, 1753700000000000000000000000000000000000000000000),
  (38000000000000, 1618200000000000000000000000000000000000000000000),
  (40000000000000, 1496200000000000000000000000000000000000000000000)]
/-- All data rows of `data/cross_sections/D_T_He_n.txt`. -/
def dtRows : List (Nat × Nat) :=
  dtRows0 ++
  dtRows1 ++
  dtRows2 ++
  dtRows3 ++
  dtRows4 ++
  dtRows5 ++
  dtRows6 ++
  dtRows7 ++
  dtRows8 ++
  dtRows9 ++
  dtRows10 ++
  dtRows11 ++
  dtRows12 ++
  dtRows13 ++
  dtRows14 ++
  dtRows15

def ddnRows0 : List (Nat × Nat) := [
  (20000000, 0),
  (620000000, 5443600000000000000000000000),
  (1220000000, 29905000000000000000000000000000000),
  (1820000000, 29393000000000000000000000000000000000),
  (2420000000, 1753200000000000000000000000000000000000),
  (3020000000, 28075000000000000000000000000000000000000),
  (3620000000, 214738000000000000000000000000000000000000),
  (4220000000, 1033770000000000000000000000000000000000000),
  (4820000000, 3641730000000000000000000000000000000000000),
  (5420000000, 10272800000000000000000000000000000000000000),
  (6020000000, 24579900000000000000000000000000000000000000),
  (6620000000, 51856100000000000000000000000000000000000000),
  (7220000000, 99112500000000000000000000000000000000000000),
  (7820000000, 175022000000000000000000000000000000000000000),
  (8420000000, 289756000000000000000000000000000000000000000),
  (9020000000, 454751000000000000000000000000000000000000000),
  (9620000000, 682436000000000000000000000000000000000000000),
  (10220000000, 985944000000000000000000000000000000000000000),
  (10820000000, 1378840000000000000000000000000000000000000000),
  (11420000000, 1874840000000000000000000000000000000000000000),
  (12020000000, 2487600000000000000000000000000000000000000000),
  (12620000000, 3230490000000000000000000000000000000000000000),
  (13220000000, 4116470000000000000000000000000000000000000000),
  (13820000000, 5157900000000000000000000000000000000000000000),
  (14420000000, 6366470000000000000000000000000000000000000000),
  (15020000000, 7753120000000000000000000000000000000000000000),
  (15620000000, 9327950000000000000000000000000000000000000000),
  (16220000000, 11100300000000000000000000000000000000000000000),
  (16820000000, 13078400000000000000000000000000000000000000000),
  (17420000000, 15270000000000000000000000000000000000000000000),
  (18020000000, 17681700000000000000000000000000000000000000000),
  (18620000000, 20319400000000000000000000000000000000000000000),
  (19220000000, 23188000000000000000000000000000000000000000000),
  (19820000000, 26291900000000000000000000000000000000000000000),
  (20420000000, 29634400000000000000000000000000000000000000000),
  (21020000000, 33218500000000000000000000000000000000000000000),
  (21620000000, 37046200000000000000000000000000000000000000000),
  (22220000000, 41119100000000000000000000000000000000000000000),
  (22820000000, 45438100000000000000000000000000000000000000000),
  (23420000000, 50003600000000000000000000000000000000000000000),
  (24020000000, 54815600000000000000000000000000000000000000000),
  (24620000000, 59873400000000000000000000000000000000000000000),
  (25220000000, 65176100000000000000000000000000000000000000000),
  (25820000000, 70722300000000000000000000000000000000000000000),
  (26420000000, 76510300000000000000000000000000000000000000000),
  (27020000000, 82538200000000000000000000000000000000000000000),
  (27620000000, 88803500000000000000000000000000000000000000000),
  (28220000000, 95303800000000000000000000000000000000000000000),
  (28820000000, 102036000000000000000000000000000000000000000000),
  (29420000000, 108998000000000000000000000000000000000000000000),
  (30620000000, 123595000000000000000000000000000000000000000000),
  (31820000000, 139069000000000000000000000000000000000000000000),
  (33020000000, 155390000000000000000000000000000000000000000000),
  (34220000000, 172528000000000000000000000000000000000000000000),
  (34820000000, 181394000000000000000000000000000000000000000000),
  (36020000000, 199698000000000000000000000000000000000000000000),
  (37220000000, 218739000000000000000000000000000000000000000000),
  (38420000000, 238487000000000000000000000000000000000000000000),
  (39620000000, 258908000000000000000000000000000000000000000000),
  (40820000000, 279971000000000000000000000000000000000000000000)]
def ddnRows1 : List (Nat × Nat) := [
  (43220000000, 323902000000000000000000000000000000000000000000),
  (44420000000, 346710000000000000000000000000000000000000000000),
  (46220000000, 381892000000000000000000000000000000000000000000),
  (48020000000, 418157000000000000000000000000000000000000000000),
  (51620000000, 493582000000000000000000000000000000000000000000),
  (54020000000, 545748000000000000000000000000000000000000000000),
  (56420000000, 599214000000000000000000000000000000000000000000),
  (59420000000, 667629000000000000000000000000000000000000000000),
  (66020000000, 823042000000000000000000000000000000000000000000),
  (70220000000, 924539000000000000000000000000000000000000000000),
  (76220000000, 1071800000000000000000000000000000000000000000000),
  (103820000000, 1755620000000000000000000000000000000000000000000),
  (119420000000, 2130750000000000000000000000000000000000000000000),
  (127820000000, 2326680000000000000000000000000000000000000000000),
  (144620000000, 2704040000000000000000000000000000000000000000000),
  (153620000000, 2897860000000000000000000000000000000000000000000),
  (162620000000, 3085780000000000000000000000000000000000000000000),
  (172220000000, 3279740000000000000000000000000000000000000000000),
  (192020000000, 3658980000000000000000000000000000000000000000000),
  (202820000000, 3854360000000000000000000000000000000000000000000),
  (214220000000, 4052130000000000000000000000000000000000000000000),
  (226220000000, 4251310000000000000000000000000000000000000000000),
  (238820000000, 4450980000000000000000000000000000000000000000000),
  (264620000000, 4831670000000000000000000000000000000000000000000),
  (293420000000, 5216240000000000000000000000000000000000000000000),
  (309020000000, 5408610000000000000000000000000000000000000000000),
  (325820000000, 5604450000000000000000000000000000000000000000000),
  (343820000000, 5802270000000000000000000000000000000000000000000),
  (362420000000, 5994750000000000000000000000000000000000000000000),
  (382820000000, 6193230000000000000000000000000000000000000000000),
  (427220000000, 6585650000000000000000000000000000000000000000000),
  (451820000000, 6782700000000000000000000000000000000000000000000),
  (478220000000, 6979950000000000000000000000000000000000000000000),
  (507020000000, 7179970000000000000000000000000000000000000000000),
  (537620000000, 7376900000000000000000000000000000000000000000000),
  (570020000000, 7569740000000000000000000000000000000000000000000),
  (604820000000, 7760860000000000000000000000000000000000000000000),
  (642020000000, 7948910000000000000000000000000000000000000000000),
  (682820000000, 8138160000000000000000000000000000000000000000000),
  (726020000000, 8321590000000000000000000000000000000000000000000),
  (773420000000, 8505200000000000000000000000000000000000000000000),
  (823820000000, 8682420000000000000000000000000000000000000000000),
  (878420000000, 8855840000000000000000000000000000000000000000000),
  (937220000000, 9023480000000000000000000000000000000000000000000),
  (1000820000000, 9185090000000000000000000000000000000000000000000),
  (1069220000000, 9338870000000000000000000000000000000000000000000),
  (1143020000000, 9484970000000000000000000000000000000000000000000),
  (1225220000000, 9627510000000000000000000000000000000000000000000),
  (1318820000000, 9768770000000000000000000000000000000000000000000),
  (1420220000000, 9901150000000000000000000000000000000000000000000),
  (1640420000000, 10126300000000000000000000000000000000000000000000),
  (1762220000000, 10218900000000000000000000000000000000000000000000),
  (1887620000000, 10292800000000000000000000000000000000000000000000),
  (2248820000000, 10423200000000000000000000000000000000000000000000),
  (2414420000000, 10453400000000000000000000000000000000000000000000),
  (2562020000000, 10460000000000000000000000000000000000000000000000),
  (2731220000000, 10444200000000000000000000000000000000000000000000),
  (2962220000000, 10395200000000000000000000000000000000000000000000),
  (3347420000000, 10284400000000000000000000000000000000000000000000),
  (3800420000000, 10130000000000000000000000000000000000000000000000)]
def ddnRows2 : List (Nat × Nat) := [
  (5073620000000, 9632460000000000000000000000000000000000000000000),
  (5541620000000, 9463070000000000000000000000000000000000000000000),
  (6072020000000, 9292750000000000000000000000000000000000000000000),
  (6711620000000, 9109930000000000000000000000000000000000000000000),
  (10690200000000, 8063820000000000000000000000000000000000000000000),
  (11845800000000, 7771260000000000000000000000000000000000000000000),
  (13227000000000, 7440400000000000000000000000000000000000000000000),
  (14832600000000, 7072540000000000000000000000000000000000000000000),
  (16308600000000, 6748030000000000000000000000000000000000000000000),
  (17700600000000, 6455570000000000000000000000000000000000000000000),
  (19093800000000, 6176290000000000000000000000000000000000000000000),
  (20000000000000, 5915560000000000000000000000000000000000000000000)]
/-- All data rows of `data/cross_sections/D_D_He3_n.txt`. -/
def ddnRows : List (Nat × Nat) :=
  ddnRows0 ++
  ddnRows1 ++
  ddnRows2

def ddpRows0 : List (Nat × Nat) := [
  (20000000, 0),
  (620000000, 5920000000000000000000000000),
  (1220000000, 32462000000000000000000000000000000),
  (1820000000, 31852000000000000000000000000000000000),
  (2420000000, 1897100000000000000000000000000000000000),
  (3020000000, 30342000000000000000000000000000000000000),
  (3620000000, 231819000000000000000000000000000000000000),
  (4220000000, 1114780000000000000000000000000000000000000),
  (4820000000, 3922740000000000000000000000000000000000000),
  (5420000000, 11052900000000000000000000000000000000000000),
  (6020000000, 26416000000000000000000000000000000000000000),
  (6620000000, 55664700000000000000000000000000000000000000),
  (7220000000, 106267000000000000000000000000000000000000000),
  (7820000000, 187433000000000000000000000000000000000000000),
  (8420000000, 309934000000000000000000000000000000000000000),
  (9020000000, 485841000000000000000000000000000000000000000),
  (9620000000, 728226000000000000000000000000000000000000000),
  (10220000000, 1050860000000000000000000000000000000000000000),
  (10820000000, 1467890000000000000000000000000000000000000000),
  (11420000000, 1993600000000000000000000000000000000000000000),
  (12020000000, 2642110000000000000000000000000000000000000000),
  (12620000000, 3427200000000000000000000000000000000000000000),
  (13220000000, 4362130000000000000000000000000000000000000000),
  (13820000000, 5459480000000000000000000000000000000000000000),
  (14420000000, 6731080000000000000000000000000000000000000000),
  (15020000000, 8187900000000000000000000000000000000000000000),
  (15620000000, 9840010000000000000000000000000000000000000000),
  (16220000000, 11696500000000000000000000000000000000000000000),
  (16820000000, 13765700000000000000000000000000000000000000000),
  (17420000000, 16054600000000000000000000000000000000000000000),
  (18020000000, 18569800000000000000000000000000000000000000000),
  (18620000000, 21316400000000000000000000000000000000000000000),
  (19220000000, 24299100000000000000000000000000000000000000000),
  (19820000000, 27521600000000000000000000000000000000000000000),
  (20420000000, 30986700000000000000000000000000000000000000000),
  (21020000000, 34696500000000000000000000000000000000000000000),
  (21620000000, 38652500000000000000000000000000000000000000000),
  (22220000000, 42855500000000000000000000000000000000000000000),
  (22820000000, 47305700000000000000000000000000000000000000000),
  (23420000000, 52002700000000000000000000000000000000000000000),
  (24020000000, 56945700000000000000000000000000000000000000000),
  (24620000000, 62133200000000000000000000000000000000000000000),
  (25220000000, 67563500000000000000000000000000000000000000000),
  (25820000000, 73234400000000000000000000000000000000000000000),
  (26420000000, 79143400000000000000000000000000000000000000000),
  (27020000000, 85287600000000000000000000000000000000000000000),
  (27620000000, 91663900000000000000000000000000000000000000000),
  (28220000000, 98269000000000000000000000000000000000000000000),
  (28820000000, 105099000000000000000000000000000000000000000000),
  (30020000000, 119419000000000000000000000000000000000000000000),
  (31220000000, 134593000000000000000000000000000000000000000000),
  (32420000000, 150585000000000000000000000000000000000000000000),
  (33620000000, 167359000000000000000000000000000000000000000000),
  (34220000000, 176029000000000000000000000000000000000000000000),
  (35420000000, 193909000000000000000000000000000000000000000000),
  (36620000000, 212481000000000000000000000000000000000000000000),
  (37820000000, 231706000000000000000000000000000000000000000000),
  (39020000000, 251549000000000000000000000000000000000000000000),
  (40220000000, 271974000000000000000000000000000000000000000000),
  (42620000000, 314429000000000000000000000000000000000000000000)]
def ddpRows1 : List (Nat × Nat) := [
  (44420000000, 347542000000000000000000000000000000000000000000),
  (46220000000, 381626000000000000000000000000000000000000000000),
  (48020000000, 416578000000000000000000000000000000000000000000),
  (50420000000, 464367000000000000000000000000000000000000000000),
  (52820000000, 513320000000000000000000000000000000000000000000),
  (55820000000, 575856000000000000000000000000000000000000000000),
  (59420000000, 652436000000000000000000000000000000000000000000),
  (64220000000, 756339000000000000000000000000000000000000000000),
  (84620000000, 1202490000000000000000000000000000000000000000000),
  (91220000000, 1343880000000000000000000000000000000000000000000),
  (97820000000, 1482450000000000000000000000000000000000000000000),
  (104420000000, 1617820000000000000000000000000000000000000000000),
  (111020000000, 1749740000000000000000000000000000000000000000000),
  (117620000000, 1878070000000000000000000000000000000000000000000),
  (124820000000, 2013920000000000000000000000000000000000000000000),
  (132020000000, 2145460000000000000000000000000000000000000000000),
  (139820000000, 2283200000000000000000000000000000000000000000000),
  (155420000000, 2544380000000000000000000000000000000000000000000),
  (164420000000, 2686880000000000000000000000000000000000000000000),
  (174020000000, 2832700000000000000000000000000000000000000000000),
  (183620000000, 2972510000000000000000000000000000000000000000000),
  (204020000000, 3251300000000000000000000000000000000000000000000),
  (216020000000, 3404680000000000000000000000000000000000000000000),
  (228020000000, 3550970000000000000000000000000000000000000000000),
  (241220000000, 3704380000000000000000000000000000000000000000000),
  (255620000000, 3863550000000000000000000000000000000000000000000),
  (286220000000, 4176750000000000000000000000000000000000000000000),
  (321020000000, 4497810000000000000000000000000000000000000000000),
  (340820000000, 4666290000000000000000000000000000000000000000000),
  (361820000000, 4835110000000000000000000000000000000000000000000),
  (384620000000, 5007950000000000000000000000000000000000000000000),
  (408020000000, 5175020000000000000000000000000000000000000000000),
  (433820000000, 5348230000000000000000000000000000000000000000000),
  (461420000000, 5522110000000000000000000000000000000000000000000),
  (491420000000, 5699170000000000000000000000000000000000000000000),
  (556220000000, 6045210000000000000000000000000000000000000000000),
  (592820000000, 6221740000000000000000000000000000000000000000000),
  (632420000000, 6399440000000000000000000000000000000000000000000),
  (673820000000, 6571730000000000000000000000000000000000000000000),
  (717620000000, 6740110000000000000000000000000000000000000000000),
  (808220000000, 7046730000000000000000000000000000000000000000000),
  (861620000000, 7203940000000000000000000000000000000000000000000),
  (928820000000, 7384270000000000000000000000000000000000000000000),
  (1103420000000, 7806780000000000000000000000000000000000000000000),
  (1215620000000, 8028040000000000000000000000000000000000000000000),
  (1279820000000, 8126520000000000000000000000000000000000000000000),
  (1578020000000, 8502360000000000000000000000000000000000000000000),
  (1666820000000, 8588750000000000000000000000000000000000000000000),
  (1908020000000, 8790280000000000000000000000000000000000000000000),
  (2152820000000, 8941720000000000000000000000000000000000000000000),
  (2298620000000, 9002910000000000000000000000000000000000000000000),
  (2455220000000, 9049130000000000000000000000000000000000000000000),
  (2631020000000, 9081060000000000000000000000000000000000000000000),
  (2841020000000, 9098000000000000000000000000000000000000000000000),
  (3139220000000, 9097430000000000000000000000000000000000000000000),
  (3486620000000, 9076140000000000000000000000000000000000000000000),
  (3881420000000, 9031310000000000000000000000000000000000000000000),
  (4404620000000, 8948390000000000000000000000000000000000000000000),
  (6823220000000, 8483630000000000000000000000000000000000000000000),
  (7828220000000, 8260570000000000000000000000000000000000000000000)]
def ddpRows2 : List (Nat × Nat) := [
  (12504600000000, 7159270000000000000000000000000000000000000000000),
  (13695000000000, 6898330000000000000000000000000000000000000000000),
  (14916600000000, 6645140000000000000000000000000000000000000000000),
  (16177200000000, 6398090000000000000000000000000000000000000000000),
  (17490000000000, 6154530000000000000000000000000000000000000000000),
  (18838800000000, 5917080000000000000000000000000000000000000000000),
  (20000000000000, 5686230000000000000000000000000000000000000000000)]
/-- All data rows of `data/cross_sections/D_D_T_p.txt`. -/
def ddpRows : List (Nat × Nat) :=
  ddpRows0 ++
  ddpRows1 ++
  ddpRows2

def ttRows0 : List (Nat × Nat) := [
  (500000000, 31052000000000000000),
  (501166000, 33878000000000000000),
  (502332000, 36950000000000000000),
  (503497000, 40288000000000000000),
  (504663000, 43914000000000000000),
  (505829000, 47851000000000000000),
  (506994000, 52127000000000000000),
  (508160000, 56768000000000000000),
  (509326000, 61803000000000000000),
  (510492000, 67266000000000000000),
  (511657000, 73190000000000000000),
  (512823000, 79612000000000000000),
  (513989000, 86573000000000000000),
  (515154000, 94116000000000000000),
  (516320000, 102290000000000000000),
  (517486000, 111130000000000000000),
  (518652000, 120710000000000000000),
  (519817000, 131080000000000000000),
  (520983000, 142300000000000000000),
  (522149000, 154440000000000000000),
  (523315000, 167560000000000000000),
  (524480000, 181760000000000000000),
  (525813000, 199390000000000000000),
  (526978000, 216150000000000000000),
  (528144000, 234250000000000000000),
  (529310000, 253810000000000000000),
  (530642000, 278070000000000000000),
  (531974000, 304550000000000000000),
  (533306000, 333430000000000000000),
  (534472000, 360840000000000000000),
  (535804000, 394810000000000000000),
  (537137000, 431840000000000000000),
  (538469000, 472170000000000000000),
  (539801000, 516100000000000000000),
  (541134000, 563940000000000000000),
  (542466000, 615990000000000000000),
  (543798000, 672640000000000000000),
  (545130000, 734260000000000000000),
  (546463000, 801260000000000000000),
  (547795000, 874100000000000000000),
  (549127000, 953240000000000000000),
  (550459000, 1039200000000000000000),
  (551791000, 1132600000000000000000),
  (553124000, 1234000000000000000000),
  (554456000, 1344100000000000000000),
  (555788000, 1463500000000000000000),
  (557121000, 1593000000000000000000),
  (558453000, 1733400000000000000000),
  (559785000, 1885700000000000000000),
  (561117000, 2050700000000000000000),
  (562450000, 2229500000000000000000),
  (563782000, 2423200000000000000000),
  (565114000, 2632800000000000000000),
  (566446000, 2859800000000000000000),
  (567779000, 3105500000000000000000),
  (569111000, 3371200000000000000000),
  (570443000, 3658700000000000000000),
  (571775000, 3969400000000000000000),
  (573108000, 4305400000000000000000),
  (574607000, 4715800000000000000000)]
def ttRows1 : List (Nat × Nat) := [
  (576105000, 5163600000000000000000),
  (577604000, 5651800000000000000000),
  (579103000, 6183900000000000000000),
  (580602000, 6763900000000000000000),
  (582100000, 7395600000000000000000),
  (583599000, 8083500000000000000000),
  (585098000, 8832300000000000000000),
  (586597000, 9647200000000000000000),
  (588096000, 10534000000000000000000),
  (589594000, 11498000000000000000000),
  (591093000, 12546000000000000000000),
  (592592000, 13685000000000000000000),
  (594091000, 14922000000000000000000),
  (595589000, 16266000000000000000000),
  (597088000, 17725000000000000000000),
  (598587000, 19309000000000000000000),
  (600086000, 21028000000000000000000),
  (601585000, 22892000000000000000000),
  (603083000, 24913000000000000000000),
  (604582000, 27105000000000000000000),
  (606081000, 29479000000000000000000),
  (607580000, 32052000000000000000000),
  (609245000, 35162000000000000000000),
  (610744000, 38205000000000000000000),
  (612243000, 41499000000000000000000),
  (613908000, 45477000000000000000000),
  (615407000, 49367000000000000000000),
  (616906000, 53572000000000000000000),
  (618571000, 58646000000000000000000),
  (620236000, 64177000000000000000000),
  (621902000, 70204000000000000000000),
  (623567000, 76769000000000000000000),
  (625232000, 83918000000000000000000),
  (626898000, 91699000000000000000000),
  (628563000, 100170000000000000000000),
  (630228000, 109380000000000000000000),
  (631894000, 119390000000000000000000),
  (633559000, 130280000000000000000000),
  (635224000, 142110000000000000000000),
  (636890000, 154960000000000000000000),
  (638555000, 168910000000000000000000),
  (640220000, 184060000000000000000000),
  (641885000, 200500000000000000000000),
  (643551000, 218340000000000000000000),
  (645216000, 237680000000000000000000),
  (646882000, 258650000000000000000000),
  (648547000, 281380000000000000000000),
  (650212000, 306000000000000000000000),
  (651877000, 332680000000000000000000),
  (653543000, 361560000000000000000000),
  (655375000, 396080000000000000000000),
  (657206000, 433740000000000000000000),
  (659038000, 474790000000000000000000),
  (660870000, 519530000000000000000000),
  (662702000, 568280000000000000000000),
  (664534000, 621360000000000000000000),
  (666366000, 679140000000000000000000),
  (668243000, 743670000000000000000000),
  (670145000, 814940000000000000000000),
  (672046000, 892690000000000000000000)]
def ttRows2 : List (Nat × Nat) := [
  (673947000, 977470000000000000000000),
  (675848000, 1069900000000000000000000),
  (677749000, 1170600000000000000000000),
  (679651000, 1280300000000000000000000),
  (681552000, 1399800000000000000000000),
  (683453000, 1529800000000000000000000),
  (685354000, 1671200000000000000000000),
  (687255000, 1825100000000000000000000),
  (689157000, 1992400000000000000000000),
  (691058000, 2174300000000000000000000),
  (692959000, 2371900000000000000000000),
  (694860000, 2586500000000000000000000),
  (696762000, 2819500000000000000000000),
  (698663000, 3072400000000000000000000),
  (700564000, 3346800000000000000000000),
  (702465000, 3644500000000000000000000),
  (704366000, 3967300000000000000000000),
  (706268000, 4317100000000000000000000),
  (708359000, 4735700000000000000000000),
  (710260000, 5149600000000000000000000),
  (712161000, 5597700000000000000000000),
  (714253000, 6133500000000000000000000),
  (716344000, 6717800000000000000000000),
  (718435000, 7354800000000000000000000),
  (720527000, 8049000000000000000000000),
  (722618000, 8805300000000000000000000),
  (724709000, 9628800000000000000000000),
  (726801000, 10525000000000000000000000),
  (728892000, 11501000000000000000000000),
  (730983000, 12562000000000000000000000),
  (733075000, 13715000000000000000000000),
  (735166000, 14969000000000000000000000),
  (737257000, 16331000000000000000000000),
  (739349000, 17811000000000000000000000),
  (741440000, 19418000000000000000000000),
  (743531000, 21161000000000000000000000),
  (745623000, 23053000000000000000000000),
  (747714000, 25105000000000000000000000),
  (749805000, 27329000000000000000000000),
  (751897000, 29740000000000000000000000),
  (754178000, 32601000000000000000000000),
  (756269000, 35450000000000000000000000),
  (758551000, 38828000000000000000000000),
  (760832000, 42511000000000000000000000),
  (763114000, 46523000000000000000000000),
  (765395000, 50894000000000000000000000),
  (767677000, 55652000000000000000000000),
  (769958000, 60831000000000000000000000),
  (772240000, 66465000000000000000000000),
  (774521000, 72593000000000000000000000),
  (776802000, 79254000000000000000000000),
  (779084000, 86493000000000000000000000),
  (781365000, 94356000000000000000000000),
  (783647000, 102890000000000000000000000),
  (785928000, 112160000000000000000000000),
  (788210000, 122220000000000000000000000),
  (790681000, 134080000000000000000000000),
  (792963000, 145990000000000000000000000),
  (795244000, 158890000000000000000000000),
  (797716000, 174090000000000000000000000)]
def ttRows3 : List (Nat × Nat) := [
  (800187000, 190670000000000000000000000),
  (802659000, 208730000000000000000000000),
  (805130000, 228410000000000000000000000),
  (807602000, 249830000000000000000000000),
  (810074000, 273160000000000000000000000),
  (812545000, 298530000000000000000000000),
  (815017000, 326140000000000000000000000),
  (817488000, 356150000000000000000000000),
  (819960000, 388760000000000000000000000),
  (822431000, 424190000000000000000000000),
  (824903000, 462670000000000000000000000),
  (827375000, 504440000000000000000000000),
  (829846000, 549770000000000000000000000),
  (832318000, 598930000000000000000000000),
  (834789000, 652240000000000000000000000),
  (837451000, 714670000000000000000000000),
  (840113000, 782720000000000000000000000),
  (842774000, 856880000000000000000000000),
  (845436000, 937660000000000000000000000),
  (848098000, 1025600000000000000000000000),
  (850760000, 1121400000000000000000000000),
  (853421000, 1225500000000000000000000000),
  (856083000, 1338800000000000000000000000),
  (858125000, 1432300000000000000000000000),
  (860332000, 1540300000000000000000000000),
  (862539000, 1656000000000000000000000000),
  (864746000, 1779900000000000000000000000),
  (866953000, 1912600000000000000000000000),
  (869160000, 2054500000000000000000000000),
  (871367000, 2206400000000000000000000000),
  (873574000, 2368900000000000000000000000),
  (875781000, 2542600000000000000000000000),
  (877988000, 2728300000000000000000000000),
  (880195000, 2926900000000000000000000000),
  (882402000, 3139000000000000000000000000),
  (884609000, 3365600000000000000000000000),
  (886816000, 3607600000000000000000000000),
  (889023000, 3866100000000000000000000000),
  (891230000, 4141900000000000000000000000),
  (893438000, 4436300000000000000000000000),
  (896380000, 4859600000000000000000000000),
  (899323000, 5321000000000000000000000000),
  (902266000, 5823600000000000000000000000),
  (905208000, 6370700000000000000000000000),
  (908151000, 6966200000000000000000000000),
  (911094000, 7614000000000000000000000000),
  (914037000, 8318500000000000000000000000),
  (916979000, 9084100000000000000000000000),
  (919922000, 9916100000000000000000000000),
  (922865000, 10820000000000000000000000000),
  (925808000, 11801000000000000000000000000),
  (928750000, 12865000000000000000000000000),
  (931693000, 14020000000000000000000000000),
  (934636000, 15272000000000000000000000000),
  (937579000, 16628000000000000000000000000),
  (940521000, 18099000000000000000000000000),
  (943464000, 19691000000000000000000000000),
  (946407000, 21415000000000000000000000000),
  (949350000, 23280000000000000000000000000),
  (952292000, 25299000000000000000000000000)]
def ttRows4 : List (Nat × Nat) := [
  (955235000, 27481000000000000000000000000),
  (958178000, 29840000000000000000000000000),
  (961121000, 32389000000000000000000000000),
  (964063000, 35143000000000000000000000000),
  (967006000, 38117000000000000000000000000),
  (969949000, 41326000000000000000000000000),
  (972892000, 44789000000000000000000000000),
  (975834000, 48525000000000000000000000000),
  (978777000, 52552000000000000000000000000),
  (981720000, 56894000000000000000000000000),
  (984663000, 61572000000000000000000000000),
  (987605000, 66610000000000000000000000000),
  (990548000, 72036000000000000000000000000),
  (993491000, 77876000000000000000000000000),
  (996434000, 84159000000000000000000000000),
  (999376000, 90918000000000000000000000000),
  (1002320000, 98187000000000000000000000000),
  (1005260000, 106000000000000000000000000000),
  (1008200000, 114390000000000000000000000000),
  (1011150000, 123410000000000000000000000000),
  (1014830000, 135630000000000000000000000000),
  (1017770000, 146210000000000000000000000000),
  (1020710000, 157570000000000000000000000000),
  (1023650000, 169760000000000000000000000000),
  (1026600000, 182830000000000000000000000000),
  (1029540000, 196830000000000000000000000000),
  (1032480000, 211850000000000000000000000000),
  (1036160000, 232140000000000000000000000000),
  (1039840000, 254240000000000000000000000000),
  (1043520000, 278310000000000000000000000000),
  (1047200000, 304520000000000000000000000000),
  (1050870000, 333030000000000000000000000000),
  (1053820000, 357630000000000000000000000000),
  (1057500000, 390770000000000000000000000000),
  (1061170000, 426810000000000000000000000000),
  (1064120000, 457860000000000000000000000000),
  (1067800000, 499650000000000000000000000000),
  (1071470000, 545000000000000000000000000000),
  (1074420000, 584050000000000000000000000000),
  (1078100000, 636560000000000000000000000000),
  (1081770000, 693480000000000000000000000000),
  (1085450000, 755140000000000000000000000000),
  (1089130000, 821950000000000000000000000000),
  (1092810000, 894270000000000000000000000000),
  (1096490000, 972540000000000000000000000000),
  (1100160000, 1057200000000000000000000000000),
  (1103840000, 1148800000000000000000000000000),
  (1107520000, 1247700000000000000000000000000),
  (1111200000, 1354600000000000000000000000000),
  (1114880000, 1470100000000000000000000000000),
  (1118560000, 1594700000000000000000000000000),
  (1122970000, 1757400000000000000000000000000),
  (1126650000, 1904700000000000000000000000000),
  (1130330000, 2063600000000000000000000000000),
  (1134010000, 2234800000000000000000000000000),
  (1138420000, 2457900000000000000000000000000),
  (1142100000, 2659500000000000000000000000000),
  (1145780000, 2876600000000000000000000000000),
  (1149460000, 3110200000000000000000000000000),
  (1153870000, 3414000000000000000000000000000)]
def ttRows5 : List (Nat × Nat) := [
  (1157550000, 3688200000000000000000000000000),
  (1161230000, 3982900000000000000000000000000),
  (1165640000, 4365700000000000000000000000000),
  (1169320000, 4710800000000000000000000000000),
  (1173000000, 5081300000000000000000000000000),
  (1177410000, 5561800000000000000000000000000),
  (1181830000, 6084800000000000000000000000000),
  (1186240000, 6653500000000000000000000000000),
  (1190660000, 7271800000000000000000000000000),
  (1195070000, 7943400000000000000000000000000),
  (1198750000, 8547000000000000000000000000000),
  (1203160000, 9328000000000000000000000000000),
  (1207580000, 10175000000000000000000000000000),
  (1211990000, 11095000000000000000000000000000),
  (1216400000, 12091000000000000000000000000000),
  (1220820000, 13171000000000000000000000000000),
  (1225230000, 14340000000000000000000000000000),
  (1229650000, 15606000000000000000000000000000),
  (1234060000, 16975000000000000000000000000000),
  (1238470000, 18457000000000000000000000000000),
  (1242890000, 20058000000000000000000000000000),
  (1247300000, 21789000000000000000000000000000),
  (1251720000, 23659000000000000000000000000000),
  (1256870000, 26030000000000000000000000000000),
  (1262020000, 28621000000000000000000000000000),
  (1267170000, 31451000000000000000000000000000),
  (1272320000, 34542000000000000000000000000000),
  (1276730000, 37414000000000000000000000000000),
  (1281140000, 40509000000000000000000000000000),
  (1285560000, 43841000000000000000000000000000),
  (1290710000, 48051000000000000000000000000000),
  (1295860000, 52637000000000000000000000000000),
  (1301010000, 57627000000000000000000000000000),
  (1306160000, 63058000000000000000000000000000),
  (1311310000, 68963000000000000000000000000000),
  (1316460000, 75381000000000000000000000000000),
  (1321610000, 82352000000000000000000000000000),
  (1326760000, 89920000000000000000000000000000),
  (1331910000, 98134000000000000000000000000000),
  (1337060000, 107040000000000000000000000000000),
  (1342210000, 116700000000000000000000000000000),
  (1347360000, 127170000000000000000000000000000),
  (1352500000, 138500000000000000000000000000000),
  (1357650000, 150770000000000000000000000000000),
  (1362800000, 164050000000000000000000000000000),
  (1367950000, 178420000000000000000000000000000),
  (1373100000, 193940000000000000000000000000000),
  (1378250000, 210720000000000000000000000000000),
  (1383400000, 228840000000000000000000000000000),
  (1388550000, 248400000000000000000000000000000),
  (1393700000, 269510000000000000000000000000000),
  (1398850000, 292280000000000000000000000000000),
  (1404000000, 316830000000000000000000000000000),
  (1409150000, 343290000000000000000000000000000),
  (1414300000, 371800000000000000000000000000000),
  (1419450000, 402490000000000000000000000000000),
  (1424600000, 435530000000000000000000000000000),
  (1430490000, 476360000000000000000000000000000),
  (1436370000, 520740000000000000000000000000000),
  (1442260000, 568920000000000000000000000000000)]
def ttRows6 : List (Nat × Nat) := [
  (1448150000, 621230000000000000000000000000000),
  (1454030000, 677980000000000000000000000000000),
  (1459920000, 739520000000000000000000000000000),
  (1465800000, 806210000000000000000000000000000),
  (1471690000, 878460000000000000000000000000000),
  (1477570000, 956680000000000000000000000000000),
  (1483460000, 1041300000000000000000000000000000),
  (1489340000, 1132900000000000000000000000000000),
  (1495230000, 1231900000000000000000000000000000),
  (1501110000, 1338800000000000000000000000000000),
  (1507000000, 1454400000000000000000000000000000),
  (1512890000, 1579100000000000000000000000000000),
  (1519510000, 1731200000000000000000000000000000),
  (1526130000, 1896900000000000000000000000000000),
  (1532750000, 2077100000000000000000000000000000),
  (1539370000, 2273100000000000000000000000000000),
  (1545990000, 2486200000000000000000000000000000),
  (1552610000, 2717600000000000000000000000000000),
  (1559230000, 2968900000000000000000000000000000),
  (1565850000, 3241500000000000000000000000000000),
  (1572480000, 3537100000000000000000000000000000),
  (1579100000, 3857700000000000000000000000000000),
  (1585720000, 4204900000000000000000000000000000),
  (1592730000, 4603900000000000000000000000000000),
  (1599750000, 5038600000000000000000000000000000),
  (1607170000, 5538300000000000000000000000000000),
  (1614190000, 6053800000000000000000000000000000),
  (1621210000, 6613200000000000000000000000000000),
  (1628240000, 7220100000000000000000000000000000),
  (1635650000, 7916500000000000000000000000000000),
  (1643060000, 8674300000000000000000000000000000),
  (1650090000, 9453800000000000000000000000000000),
  (1657500000, 10346000000000000000000000000000000),
  (1664910000, 11316000000000000000000000000000000),
  (1672330000, 12370000000000000000000000000000000),
  (1679740000, 13513000000000000000000000000000000),
  (1687540000, 14821000000000000000000000000000000),
  (1694960000, 16171000000000000000000000000000000),
  (1702760000, 17714000000000000000000000000000000),
  (1710960000, 19480000000000000000000000000000000),
  (1718760000, 21312000000000000000000000000000000),
  (1726560000, 23301000000000000000000000000000000),
  (1734370000, 25460000000000000000000000000000000),
  (1742560000, 27925000000000000000000000000000000),
  (1750760000, 30608000000000000000000000000000000),
  (1758950000, 33527000000000000000000000000000000),
  (1767140000, 36701000000000000000000000000000000),
  (1775340000, 40149000000000000000000000000000000),
  (1783530000, 43894000000000000000000000000000000),
  (1792110000, 48160000000000000000000000000000000),
  (1800310000, 52586000000000000000000000000000000),
  (1808890000, 57621000000000000000000000000000000),
  (1817480000, 63096000000000000000000000000000000),
  (1826060000, 69048000000000000000000000000000000),
  (1835040000, 75818000000000000000000000000000000),
  (1844010000, 83194000000000000000000000000000000),
  (1852980000, 91225000000000000000000000000000000),
  (1861570000, 99568000000000000000000000000000000),
  (1870540000, 109040000000000000000000000000000000),
  (1879520000, 119320000000000000000000000000000000)]
def ttRows7 : List (Nat × Nat) := [
  (1888880000, 131010000000000000000000000000000000),
  (1898250000, 143730000000000000000000000000000000),
  (1907610000, 157580000000000000000000000000000000),
  (1917370000, 173300000000000000000000000000000000),
  (1926730000, 189730000000000000000000000000000000),
  (1936100000, 207590000000000000000000000000000000),
  (1945850000, 227810000000000000000000000000000000),
  (1955600000, 249830000000000000000000000000000000),
  (1964970000, 272790000000000000000000000000000000),
  (1974720000, 298750000000000000000000000000000000),
  (1984230000, 326220000000000000000000000000000000),
  (1992780000, 352850000000000000000000000000000000),
  (2003030000, 387420000000000000000000000000000000),
  (2013280000, 425070000000000000000000000000000000),
  (2023530000, 466050000000000000000000000000000000),
  (2033780000, 510610000000000000000000000000000000),
  (2044030000, 559050000000000000000000000000000000),
  (2054280000, 611650000000000000000000000000000000),
  (2064530000, 668740000000000000000000000000000000),
  (2074780000, 730680000000000000000000000000000000),
  (2085030000, 797810000000000000000000000000000000),
  (2095280000, 870550000000000000000000000000000000),
  (2105530000, 949290000000000000000000000000000000),
  (2115780000, 1034500000000000000000000000000000000),
  (2126030000, 1126600000000000000000000000000000000),
  (2136280000, 1226200000000000000000000000000000000),
  (2146530000, 1333800000000000000000000000000000000),
  (2156780000, 1449900000000000000000000000000000000),
  (2167030000, 1575100000000000000000000000000000000),
  (2178990000, 1733700000000000000000000000000000000),
  (2189230000, 1881000000000000000000000000000000000),
  (2199490000, 2039700000000000000000000000000000000),
  (2211440000, 2240200000000000000000000000000000000),
  (2221690000, 2426200000000000000000000000000000000),
  (2233650000, 2660900000000000000000000000000000000),
  (2245610000, 2916100000000000000000000000000000000),
  (2257570000, 3193400000000000000000000000000000000),
  (2269530000, 3494500000000000000000000000000000000),
  (2281490000, 3821300000000000000000000000000000000),
  (2293440000, 4175600000000000000000000000000000000),
  (2305400000, 4559500000000000000000000000000000000),
  (2317360000, 4975300000000000000000000000000000000),
  (2329320000, 5425400000000000000000000000000000000),
  (2341280000, 5912100000000000000000000000000000000),
  (2353230000, 6438100000000000000000000000000000000),
  (2365190000, 7006300000000000000000000000000000000),
  (2377150000, 7619700000000000000000000000000000000),
  (2390820000, 8380200000000000000000000000000000000),
  (2404490000, 9208900000000000000000000000000000000),
  (2418150000, 10111000000000000000000000000000000000),
  (2430110000, 10966000000000000000000000000000000000),
  (2443780000, 12023000000000000000000000000000000000),
  (2457440000, 13171000000000000000000000000000000000),
  (2471110000, 14417000000000000000000000000000000000),
  (2484780000, 15769000000000000000000000000000000000),
  (2498440000, 17236000000000000000000000000000000000),
  (2512110000, 18824000000000000000000000000000000000),
  (2525780000, 20545000000000000000000000000000000000),
  (2539440000, 22406000000000000000000000000000000000),
  (2553110000, 24418000000000000000000000000000000000)]
def ttRows8 : List (Nat × Nat) := [
  (2568490000, 26876000000000000000000000000000000000),
  (2582150000, 29247000000000000000000000000000000000),
  (2597530000, 32138000000000000000000000000000000000),
  (2612900000, 35286000000000000000000000000000000000),
  (2628280000, 38709000000000000000000000000000000000),
  (2643650000, 42429000000000000000000000000000000000),
  (2659030000, 46468000000000000000000000000000000000),
  (2674400000, 50852000000000000000000000000000000000),
  (2689780000, 55605000000000000000000000000000000000),
  (2705150000, 60755000000000000000000000000000000000),
  (2720530000, 66331000000000000000000000000000000000),
  (2735900000, 72364000000000000000000000000000000000),
  (2751280000, 78886000000000000000000000000000000000),
  (2766650000, 85934000000000000000000000000000000000),
  (2782030000, 93543000000000000000000000000000000000),
  (2799110000, 102700000000000000000000000000000000000),
  (2816190000, 112660000000000000000000000000000000000),
  (2833280000, 123480000000000000000000000000000000000),
  (2850360000, 135230000000000000000000000000000000000),
  (2867440000, 147970000000000000000000000000000000000),
  (2884530000, 161780000000000000000000000000000000000),
  (2901610000, 176730000000000000000000000000000000000),
  (2918690000, 192910000000000000000000000000000000000),
  (2937490000, 212230000000000000000000000000000000000),
  (2956280000, 233270000000000000000000000000000000000),
  (2975070000, 256170000000000000000000000000000000000),
  (2993860000, 281050000000000000000000000000000000000),
  (3012650000, 308080000000000000000000000000000000000),
  (3031440000, 337410000000000000000000000000000000000),
  (3050240000, 369220000000000000000000000000000000000),
  (3069030000, 403690000000000000000000000000000000000),
  (3087820000, 441000000000000000000000000000000000000),
  (3106610000, 481370000000000000000000000000000000000),
  (3127110000, 529140000000000000000000000000000000000),
  (3147610000, 581100000000000000000000000000000000000),
  (3168110000, 637570000000000000000000000000000000000),
  (3188610000, 698890000000000000000000000000000000000),
  (3209110000, 765420000000000000000000000000000000000),
  (3229610000, 837530000000000000000000000000000000000),
  (3250110000, 915640000000000000000000000000000000000),
  (3270610000, 1000200000000000000000000000000000000000),
  (3292820000, 1099500000000000000000000000000000000000),
  (3315030000, 1207600000000000000000000000000000000000),
  (3337240000, 1325000000000000000000000000000000000000),
  (3359440000, 1452400000000000000000000000000000000000),
  (3381650000, 1590600000000000000000000000000000000000),
  (3403860000, 1740400000000000000000000000000000000000),
  (3426070000, 1902600000000000000000000000000000000000),
  (3449990000, 2092100000000000000000000000000000000000),
  (3473900000, 2298200000000000000000000000000000000000),
  (3497820000, 2522000000000000000000000000000000000000),
  (3521730000, 2765000000000000000000000000000000000000),
  (3545650000, 3028600000000000000000000000000000000000),
  (3569570000, 3314100000000000000000000000000000000000),
  (3593480000, 3623200000000000000000000000000000000000),
  (3619110000, 3982400000000000000000000000000000000000),
  (3644740000, 4372700000000000000000000000000000000000),
  (3670360000, 4796500000000000000000000000000000000000),
  (3695990000, 5256200000000000000000000000000000000000),
  (3721610000, 5754300000000000000000000000000000000000)]
def ttRows9 : List (Nat × Nat) := [
  (3747230000, 6293700000000000000000000000000000000000),
  (3774570000, 6917600000000000000000000000000000000000),
  (3801900000, 7595500000000000000000000000000000000000),
  (3829230000, 8331200000000000000000000000000000000000),
  (3856570000, 9128900000000000000000000000000000000000),
  (3883900000, 9993200000000000000000000000000000000000),
  (3911230000, 10929000000000000000000000000000000000000),
  (3940280000, 12006000000000000000000000000000000000000),
  (3969320000, 13175000000000000000000000000000000000000),
  (3998360000, 14444000000000000000000000000000000000000),
  (4027400000, 15818000000000000000000000000000000000000),
  (4056440000, 17306000000000000000000000000000000000000),
  (4087190000, 19014000000000000000000000000000000000000),
  (4117940000, 20867000000000000000000000000000000000000),
  (4148690000, 22877000000000000000000000000000000000000),
  (4179440000, 25054000000000000000000000000000000000000),
  (4211900000, 27547000000000000000000000000000000000000),
  (4244360000, 30254000000000000000000000000000000000000),
  (4276820000, 33190000000000000000000000000000000000000),
  (4309280000, 36373000000000000000000000000000000000000),
  (4343440000, 40007000000000000000000000000000000000000),
  (4377610000, 43953000000000000000000000000000000000000),
  (4411780000, 48235000000000000000000000000000000000000),
  (4445940000, 52875000000000000000000000000000000000000),
  (4480110000, 57899000000000000000000000000000000000000),
  (4515990000, 63617000000000000000000000000000000000000),
  (4551860000, 69818000000000000000000000000000000000000),
  (4587730000, 76538000000000000000000000000000000000000),
  (4625320000, 84174000000000000000000000000000000000000),
  (4662900000, 92461000000000000000000000000000000000000),
  (4700480000, 101450000000000000000000000000000000000000),
  (4739780000, 111640000000000000000000000000000000000000),
  (4779070000, 122710000000000000000000000000000000000000),
  (4818360000, 134710000000000000000000000000000000000000),
  (4859360000, 148300000000000000000000000000000000000000),
  (4900360000, 163070000000000000000000000000000000000000),
  (4941360000, 179080000000000000000000000000000000000000),
  (4984070000, 197190000000000000000000000000000000000000),
  (5026780000, 216850000000000000000000000000000000000000),
  (5069490000, 238180000000000000000000000000000000000000),
  (5112190000, 261290000000000000000000000000000000000000),
  (5156610000, 287340000000000000000000000000000000000000),
  (5201030000, 315590000000000000000000000000000000000000),
  (5247150000, 347420000000000000000000000000000000000000),
  (5293280000, 381960000000000000000000000000000000000000),
  (5339400000, 419410000000000000000000000000000000000000),
  (5387240000, 461520000000000000000000000000000000000000),
  (5435570000, 507690000000000000000000000000000000000000),
  (5484600000, 558500000000000000000000000000000000000000),
  (5533640000, 613600000000000000000000000000000000000000),
  (5584250000, 675270000000000000000000000000000000000000),
  (5634860000, 742150000000000000000000000000000000000000),
  (5687050000, 816950000000000000000000000000000000000000),
  (5739250000, 898070000000000000000000000000000000000000),
  (5793030000, 988700000000000000000000000000000000000000),
  (5846800000, 1087000000000000000000000000000000000000000),
  (5902160000, 1196700000000000000000000000000000000000000),
  (5957520000, 1315700000000000000000000000000000000000000),
  (6014460000, 1448400000000000000000000000000000000000000),
  (6071400000, 1592200000000000000000000000000000000000000)]
def ttRows10 : List (Nat × Nat) := [
  (6129920000, 1752400000000000000000000000000000000000000),
  (6190020000, 1930900000000000000000000000000000000000000),
  (6250120000, 2124500000000000000000000000000000000000000),
  (6311810000, 2340000000000000000000000000000000000000000),
  (6373490000, 2573500000000000000000000000000000000000000),
  (6436760000, 2833100000000000000000000000000000000000000),
  (6501610000, 3121700000000000000000000000000000000000000),
  (6568040000, 3442500000000000000000000000000000000000000),
  (6634460000, 3790500000000000000000000000000000000000000),
  (6702480000, 4176800000000000000000000000000000000000000),
  (6772070000, 4605700000000000000000000000000000000000000),
  (6841660000, 5070700000000000000000000000000000000000000),
  (6912840000, 5586200000000000000000000000000000000000000),
  (6980850000, 6118800000000000000000000000000000000000000),
  (7053130000, 6730600000000000000000000000000000000000000),
  (7125420000, 7392400000000000000000000000000000000000000),
  (7197710000, 8107500000000000000000000000000000000000000),
  (7270000000, 8878900000000000000000000000000000000000000),
  (7348850000, 9788800000000000000000000000000000000000000),
  (7427710000, 10775000000000000000000000000000000000000000),
  (7506570000, 11841000000000000000000000000000000000000000),
  (7585430000, 12993000000000000000000000000000000000000000),
  (7664290000, 14236000000000000000000000000000000000000000),
  (7749720000, 15691000000000000000000000000000000000000000),
  (7835150000, 17267000000000000000000000000000000000000000),
  (7920580000, 18970000000000000000000000000000000000000000),
  (8006010000, 20808000000000000000000000000000000000000000),
  (8098010000, 22948000000000000000000000000000000000000000),
  (8190020000, 25265000000000000000000000000000000000000000),
  (8282020000, 27769000000000000000000000000000000000000000),
  (8374020000, 30472000000000000000000000000000000000000000),
  (8472590000, 33601000000000000000000000000000000000000000),
  (8571170000, 36987000000000000000000000000000000000000000),
  (8669740000, 40645000000000000000000000000000000000000000),
  (8774890000, 44864000000000000000000000000000000000000000),
  (8880030000, 49430000000000000000000000000000000000000000),
  (8985180000, 54364000000000000000000000000000000000000000),
  (9096890000, 60034000000000000000000000000000000000000000),
  (9208610000, 66170000000000000000000000000000000000000000),
  (9320330000, 72800000000000000000000000000000000000000000),
  (9438610000, 80390000000000000000000000000000000000000000),
  (9556900000, 88601000000000000000000000000000000000000000),
  (9675190000, 97468000000000000000000000000000000000000000),
  (9800050000, 107580000000000000000000000000000000000000000),
  (9924910000, 118510000000000000000000000000000000000000000),
  (10049800000, 130310000000000000000000000000000000000000000),
  (10181200000, 143710000000000000000000000000000000000000000),
  (10312600000, 158180000000000000000000000000000000000000000),
  (10450600000, 174580000000000000000000000000000000000000000),
  (10588600000, 192300000000000000000000000000000000000000000),
  (10726600000, 211400000000000000000000000000000000000000000),
  (10871200000, 232980000000000000000000000000000000000000000),
  (11022400000, 257340000000000000000000000000000000000000000),
  (11180100000, 284840000000000000000000000000000000000000000),
  (11337800000, 314570000000000000000000000000000000000000000),
  (11495500000, 346660000000000000000000000000000000000000000),
  (11659800000, 382730000000000000000000000000000000000000000),
  (11830700000, 423260000000000000000000000000000000000000000),
  (12001500000, 467010000000000000000000000000000000000000000),
  (12179000000, 516060000000000000000000000000000000000000000)]
def ttRows11 : List (Nat × Nat) := [
  (12363000000, 570990000000000000000000000000000000000000000),
  (12547000000, 630300000000000000000000000000000000000000000),
  (12737500000, 696550000000000000000000000000000000000000000),
  (12928100000, 767990000000000000000000000000000000000000000),
  (13125300000, 847600000000000000000000000000000000000000000),
  (13335600000, 939240000000000000000000000000000000000000000),
  (13545800000, 1038200000000000000000000000000000000000000000),
  (13760100000, 1146800000000000000000000000000000000000000000),
  (13987200000, 1271000000000000000000000000000000000000000000),
  (14220800000, 1409000000000000000000000000000000000000000000),
  (14460900000, 1562200000000000000000000000000000000000000000),
  (14707500000, 1732000000000000000000000000000000000000000000),
  (14960500000, 1920000000000000000000000000000000000000000000),
  (15220100000, 2128100000000000000000000000000000000000000000),
  (15486100000, 2358100000000000000000000000000000000000000000),
  (15758600000, 2611900000000000000000000000000000000000000000),
  (16044200000, 2898700000000000000000000000000000000000000000),
  (16342700000, 3222100000000000000000000000000000000000000000),
  (16647600000, 3578600000000000000000000000000000000000000000),
  (16959100000, 3971100000000000000000000000000000000000000000),
  (17283500000, 4411700000000000000000000000000000000000000000),
  (17614500000, 4895900000000000000000000000000000000000000000),
  (17958400000, 5437700000000000000000000000000000000000000000),
  (18315300000, 6043200000000000000000000000000000000000000000),
  (18685200000, 6718900000000000000000000000000000000000000000),
  (19068000000, 7472000000000000000000000000000000000000000000),
  (19463800000, 8310200000000000000000000000000000000000000000),
  (19872600000, 9241500000000000000000000000000000000000000000),
  (20298500000, 10285000000000000000000000000000000000000000000),
  (20737000000, 11440000000000000000000000000000000000000000000),
  (21198800000, 12749000000000000000000000000000000000000000000),
  (21678200000, 14209000000000000000000000000000000000000000000),
  (22180900000, 15857000000000000000000000000000000000000000000),
  (22701200000, 17689000000000000000000000000000000000000000000),
  (23244800000, 19747000000000000000000000000000000000000000000),
  (23806000000, 22028000000000000000000000000000000000000000000),
  (24396400000, 24604000000000000000000000000000000000000000000),
  (25016100000, 27507000000000000000000000000000000000000000000),
  (25665000000, 30769000000000000000000000000000000000000000000),
  (26347800000, 34453000000000000000000000000000000000000000000),
  (27051000000, 38520000000000000000000000000000000000000000000),
  (27802600000, 43179000000000000000000000000000000000000000000),
  (28578600000, 48330000000000000000000000000000000000000000000),
  (29403000000, 54187000000000000000000000000000000000000000000),
  (30275900000, 60824000000000000000000000000000000000000000000),
  (31197300000, 68318000000000000000000000000000000000000000000),
  (32167100000, 76750000000000000000000000000000000000000000000),
  (33209800000, 86436000000000000000000000000000000000000000000),
  (34325200000, 97506000000000000000000000000000000000000000000),
  (35513300000, 110100000000000000000000000000000000000000000000),
  (36774100000, 124350000000000000000000000000000000000000000000),
  (38132000000, 140720000000000000000000000000000000000000000000),
  (39586800000, 159390000000000000000000000000000000000000000000),
  (41162900000, 180900000000000000000000000000000000000000000000),
  (42884500000, 205890000000000000000000000000000000000000000000),
  (44775800000, 235040000000000000000000000000000000000000000000),
  (46861000000, 269150000000000000000000000000000000000000000000),
  (49164500000, 309080000000000000000000000000000000000000000000),
  (51748000000, 356460000000000000000000000000000000000000000000),
  (54672500000, 413100000000000000000000000000000000000000000000)]
def ttRows12 : List (Nat × Nat) := [
  (58050900000, 482050000000000000000000000000000000000000000000),
  (62034300000, 567520000000000000000000000000000000000000000000),
  (66950600000, 678040000000000000000000000000000000000000000000),
  (73430000000, 830020000000000000000000000000000000000000000000),
  (84177200000, 1091200000000000000000000000000000000000000000000),
  (103509000000, 1564300000000000000000000000000000000000000000000),
  (116394000000, 1868200000000000000000000000000000000000000000000),
  (128848000000, 2147100000000000000000000000000000000000000000000),
  (141548000000, 2414100000000000000000000000000000000000000000000),
  (154865000000, 2674500000000000000000000000000000000000000000000),
  (169124000000, 2931300000000000000000000000000000000000000000000),
  (184673000000, 3187000000000000000000000000000000000000000000000),
  (201856000000, 3442800000000000000000000000000000000000000000000),
  (221368000000, 3704000000000000000000000000000000000000000000000),
  (243778000000, 3972300000000000000000000000000000000000000000000),
  (269709000000, 4248700000000000000000000000000000000000000000000),
  (300764000000, 4542600000000000000000000000000000000000000000000),
  (338861000000, 4863100000000000000000000000000000000000000000000),
  (387522000000, 5228700000000000000000000000000000000000000000000),
  (448350000000, 5639500000000000000000000000000000000000000000000),
  (515580000000, 6047600000000000000000000000000000000000000000000),
  (583167000000, 6408900000000000000000000000000000000000000000000),
  (665718000000, 6793100000000000000000000000000000000000000000000),
  (770783000000, 7220300000000000000000000000000000000000000000000),
  (915248000000, 7739100000000000000000000000000000000000000000000),
  (1148630000000, 8495800000000000000000000000000000000000000000000),
  (1469650000000, 9460000000000000000000000000000000000000000000000),
  (1744520000000, 10223000000000000000000000000000000000000000000000),
  (1929530000000, 10665000000000000000000000000000000000000000000000),
  (2114060000000, 11019000000000000000000000000000000000000000000000),
  (2317050000000, 11317000000000000000000000000000000000000000000000),
  (2542180000000, 11556000000000000000000000000000000000000000000000),
  (2793150000000, 11726000000000000000000000000000000000000000000000),
  (3073640000000, 11818000000000000000000000000000000000000000000000),
  (3394730000000, 11825000000000000000000000000000000000000000000000),
  (3767490000000, 11731000000000000000000000000000000000000000000000),
  (4214060000000, 11516000000000000000000000000000000000000000000000),
  (4808270000000, 11122000000000000000000000000000000000000000000000),
  (6898830000000, 9537800000000000000000000000000000000000000000000),
  (8164180000000, 8648600000000000000000000000000000000000000000000),
  (9288940000000, 7923400000000000000000000000000000000000000000000),
  (10315900000000, 7321500000000000000000000000000000000000000000000),
  (11275600000000, 6815300000000000000000000000000000000000000000000),
  (12182900000000, 6389300000000000000000000000000000000000000000000),
  (13141800000000, 5990900000000000000000000000000000000000000000000),
  (14158200000000, 5617700000000000000000000000000000000000000000000),
  (15232100000000, 5269400000000000000000000000000000000000000000000),
  (16363600000000, 4945700000000000000000000000000000000000000000000),
  (17543000000000, 4648300000000000000000000000000000000000000000000),
  (18780000000000, 4374000000000000000000000000000000000000000000000),
  (20000000000000, 4122200000000000000000000000000000000000000000000)]
/-- All data rows of `data/cross_sections/T_T_He_2n.txt`. -/
def ttRows : List (Nat × Nat) :=
  ttRows0 ++
  ttRows1 ++
  ttRows2 ++
  ttRows3 ++
  ttRows4 ++
  ttRows5 ++
  ttRows6 ++
  ttRows7 ++
  ttRows8 ++
  ttRows9 ++
  ttRows10 ++
  ttRows11 ++
  ttRows12

def dhe3Rows0 : List (Nat × Nat) := [
  (0, 0),
  (10000000000, 68552000000000000000000000000000000000000),
  (10059700000, 74092000000000000000000000000000000000000),
  (10116100000, 79673000000000000000000000000000000000000),
  (10194200000, 88021000000000000000000000000000000000000),
  (10266400000, 96413000000000000000000000000000000000000),
  (10331600000, 104598000000000000000000000000000000000000),
  (10391900000, 112691000000000000000000000000000000000000),
  (10466000000, 123404000000000000000000000000000000000000),
  (10531300000, 133571000000000000000000000000000000000000),
  (10614000000, 147502000000000000000000000000000000000000),
  (10683800000, 160222000000000000000000000000000000000000),
  (10762000000, 175621000000000000000000000000000000000000),
  (10843200000, 192980000000000000000000000000000000000000),
  (10898900000, 205745000000000000000000000000000000000000),
  (10966200000, 222129000000000000000000000000000000000000),
  (11030000000, 238701000000000000000000000000000000000000),
  (11116500000, 262937000000000000000000000000000000000000),
  (11194800000, 286693000000000000000000000000000000000000),
  (11267200000, 310284000000000000000000000000000000000000),
  (11353500000, 340634000000000000000000000000000000000000),
  (11432300000, 370606000000000000000000000000000000000000),
  (11501800000, 398884000000000000000000000000000000000000),
  (11591600000, 438204000000000000000000000000000000000000),
  (11641900000, 461675000000000000000000000000000000000000),
  (11730400000, 505666000000000000000000000000000000000000),
  (11822400000, 555210000000000000000000000000000000000000),
  (11885500000, 591611000000000000000000000000000000000000),
  (11961700000, 638302000000000000000000000000000000000000),
  (12060200000, 703370000000000000000000000000000000000000),
  (12143500000, 762895000000000000000000000000000000000000),
  (12220500000, 821715000000000000000000000000000000000000),
  (12315400000, 899530000000000000000000000000000000000000),
  (12398900000, 973336000000000000000000000000000000000000),
  (12504800000, 1074390000000000000000000000000000000000000),
  (12594200000, 1166580000000000000000000000000000000000000),
  (12694400000, 1278100000000000000000000000000000000000000),
  (12798700000, 1403710000000000000000000000000000000000000),
  (12870200000, 1496010000000000000000000000000000000000000),
  (12956600000, 1614400000000000000000000000000000000000000),
  (13060400000, 1767250000000000000000000000000000000000000),
  (13170700000, 1943390000000000000000000000000000000000000),
  (13271600000, 2117540000000000000000000000000000000000000),
  (13360500000, 2282000000000000000000000000000000000000000),
  (13475600000, 2510920000000000000000000000000000000000000),
  (13540000000, 2647690000000000000000000000000000000000000),
  (13653600000, 2904230000000000000000000000000000000000000),
  (13771700000, 3193450000000000000000000000000000000000000),
  (13852800000, 3406110000000000000000000000000000000000000),
  (13950800000, 3679090000000000000000000000000000000000000),
  (14058500000, 4001010000000000000000000000000000000000000),
  (14172700000, 4368010000000000000000000000000000000000000),
  (14280500000, 4740910000000000000000000000000000000000000),
  (14382300000, 5117800000000000000000000000000000000000000),
  (14478500000, 5496810000000000000000000000000000000000000),
  (14613300000, 6068590000000000000000000000000000000000000),
  (14735400000, 6629730000000000000000000000000000000000000),
  (14848300000, 7187600000000000000000000000000000000000000),
  (14983300000, 7906060000000000000000000000000000000000000),
  (15106700000, 8616330000000000000000000000000000000000000)]
def dhe3Rows1 : List (Nat × Nat) := [
  (15215600000, 9287030000000000000000000000000000000000000),
  (15356500000, 10220400000000000000000000000000000000000000),
  (15435500000, 10777900000000000000000000000000000000000000),
  (15574700000, 11823500000000000000000000000000000000000000),
  (15719600000, 13002000000000000000000000000000000000000000),
  (15819200000, 13868300000000000000000000000000000000000000),
  (15939500000, 14980000000000000000000000000000000000000000),
  (16059000000, 16158400000000000000000000000000000000000000),
  (16173900000, 17365400000000000000000000000000000000000000),
  (16335200000, 19186900000000000000000000000000000000000000),
  (16481400000, 20975200000000000000000000000000000000000000),
  (16616600000, 22753600000000000000000000000000000000000000),
  (16778300000, 25044600000000000000000000000000000000000000),
  (16926400000, 27310000000000000000000000000000000000000000),
  (17057000000, 29449600000000000000000000000000000000000000),
  (17226100000, 32427700000000000000000000000000000000000000),
  (17321000000, 34206800000000000000000000000000000000000000),
  (17488300000, 37543800000000000000000000000000000000000000),
  (17662500000, 41305100000000000000000000000000000000000000),
  (17782300000, 44070200000000000000000000000000000000000000),
  (17927100000, 47618600000000000000000000000000000000000000),
  (18059400000, 51065300000000000000000000000000000000000000),
  (18231100000, 55854500000000000000000000000000000000000000),
  (18386800000, 60512700000000000000000000000000000000000000),
  (18530700000, 65106400000000000000000000000000000000000000),
  (18708300000, 71169700000000000000000000000000000000000000),
  (18865100000, 76907000000000000000000000000000000000000000),
  (19068200000, 84908000000000000000000000000000000000000000),
  (19182300000, 89695800000000000000000000000000000000000000),
  (19383500000, 98690100000000000000000000000000000000000000),
  (19593300000, 108848000000000000000000000000000000000000000),
  (19737600000, 116328000000000000000000000000000000000000000),
  (19912100000, 125941000000000000000000000000000000000000000),
  (20119500000, 138211000000000000000000000000000000000000000),
  (20338400000, 152221000000000000000000000000000000000000000),
  (20539000000, 166075000000000000000000000000000000000000000),
  (20716200000, 179157000000000000000000000000000000000000000),
  (20945800000, 197363000000000000000000000000000000000000000),
  (21074800000, 208236000000000000000000000000000000000000000),
  (21302400000, 228626000000000000000000000000000000000000000),
  (21539600000, 251599000000000000000000000000000000000000000),
  (21702900000, 268481000000000000000000000000000000000000000),
  (21900500000, 290138000000000000000000000000000000000000000),
  (22120000000, 315854000000000000000000000000000000000000000),
  (22346700000, 344358000000000000000000000000000000000000000),
  (22546900000, 371253000000000000000000000000000000000000000),
  (22806600000, 408643000000000000000000000000000000000000000),
  (23080900000, 451408000000000000000000000000000000000000000),
  (23307300000, 489391000000000000000000000000000000000000000),
  (23552400000, 533379000000000000000000000000000000000000000),
  (23775100000, 576091000000000000000000000000000000000000000),
  (24000000000, 621971000000000000000000000000000000000000000),
  (24241300000, 674500000000000000000000000000000000000000000),
  (24548300000, 746433000000000000000000000000000000000000000),
  (24808300000, 812056000000000000000000000000000000000000000),
  (25101000000, 891426000000000000000000000000000000000000000),
  (25406500000, 980778000000000000000000000000000000000000000),
  (25743900000, 1087690000000000000000000000000000000000000000),
  (26000000000, 1174870000000000000000000000000000000000000000),
  (26348500000, 1302540000000000000000000000000000000000000000)]
def dhe3Rows2 : List (Nat × Nat) := [
  (26643800000, 1419160000000000000000000000000000000000000000),
  (26976600000, 1560370000000000000000000000000000000000000000),
  (27324100000, 1719530000000000000000000000000000000000000000),
  (27563600000, 1836510000000000000000000000000000000000000000),
  (27853800000, 1986600000000000000000000000000000000000000000),
  (28121000000, 2133320000000000000000000000000000000000000000),
  (28456400000, 2329580000000000000000000000000000000000000000),
  (28834700000, 2567680000000000000000000000000000000000000000),
  (29230100000, 2836580000000000000000000000000000000000000000),
  (29502800000, 3034550000000000000000000000000000000000000000),
  (29833300000, 3288890000000000000000000000000000000000000000),
  (30144900000, 3543810000000000000000000000000000000000000000),
  (30565300000, 3912400000000000000000000000000000000000000000),
  (30947800000, 4273120000000000000000000000000000000000000000),
  (31303000000, 4630730000000000000000000000000000000000000000),
  (31742800000, 5105340000000000000000000000000000000000000000),
  (32132800000, 5556820000000000000000000000000000000000000000),
  (32630100000, 6176640000000000000000000000000000000000000000),
  (33052200000, 6743440000000000000000000000000000000000000000),
  (33528800000, 7430420000000000000000000000000000000000000000),
  (34027400000, 8205420000000000000000000000000000000000000000),
  (34371600000, 8775460000000000000000000000000000000000000000),
  (34789300000, 9507150000000000000000000000000000000000000000),
  (35293300000, 10452900000000000000000000000000000000000000000),
  (35849900000, 11580200000000000000000000000000000000000000000),
  (36344200000, 12656300000000000000000000000000000000000000000),
  (36782200000, 13671800000000000000000000000000000000000000000),
  (37340700000, 15054200000000000000000000000000000000000000000),
  (37814700000, 16307500000000000000000000000000000000000000000),
  (38349500000, 17814300000000000000000000000000000000000000000),
  (38931000000, 19568000000000000000000000000000000000000000000),
  (39461900000, 21278600000000000000000000000000000000000000000),
  (40000000000, 23123500000000000000000000000000000000000000000),
  (40593300000, 25300500000000000000000000000000000000000000000),
  (41119600000, 27355600000000000000000000000000000000000000000),
  (41791300000, 30154200000000000000000000000000000000000000000),
  (42361900000, 32692400000000000000000000000000000000000000000),
  (43006600000, 35744300000000000000000000000000000000000000000),
  (43708200000, 39296900000000000000000000000000000000000000000),
  (44349400000, 42762400000000000000000000000000000000000000000),
  (45000000000, 46500200000000000000000000000000000000000000000),
  (45860100000, 51819200000000000000000000000000000000000000000),
  (46592500000, 56683600000000000000000000000000000000000000000),
  (47422000000, 62578800000000000000000000000000000000000000000),
  (48292800000, 69226700000000000000000000000000000000000000000),
  (49261100000, 77191800000000000000000000000000000000000000000),
  (50000000000, 83691700000000000000000000000000000000000000000),
  (50863700000, 91805600000000000000000000000000000000000000000),
  (51598000000, 99126900000000000000000000000000000000000000000),
  (52428200000, 107887000000000000000000000000000000000000000000),
  (53332600000, 118028000000000000000000000000000000000000000000),
  (54438500000, 131306000000000000000000000000000000000000000000),
  (55299900000, 142359000000000000000000000000000000000000000000),
  (56133100000, 153681000000000000000000000000000000000000000000),
  (57075800000, 167218000000000000000000000000000000000000000000),
  (58103500000, 182878000000000000000000000000000000000000000000),
  (59361000000, 203363000000000000000000000000000000000000000000),
  (60000000000, 214340000000000000000000000000000000000000000000),
  (61212700000, 236382000000000000000000000000000000000000000000),
  (62138300000, 254193000000000000000000000000000000000000000000)]
def dhe3Rows3 : List (Nat × Nat) := [
  (63553100000, 283109000000000000000000000000000000000000000000),
  (65000000000, 314855000000000000000000000000000000000000000000),
  (66215500000, 343438000000000000000000000000000000000000000000),
  (67142000000, 366331000000000000000000000000000000000000000000),
  (68556100000, 403154000000000000000000000000000000000000000000),
  (70000000000, 443142000000000000000000000000000000000000000000),
  (71680000000, 493104000000000000000000000000000000000000000000),
  (73558700000, 553082000000000000000000000000000000000000000000),
  (75000000000, 602090000000000000000000000000000000000000000000),
  (76219900000, 645943000000000000000000000000000000000000000000),
  (78087100000, 716850000000000000000000000000000000000000000000),
  (80000000000, 794313000000000000000000000000000000000000000000),
  (82150300000, 888011000000000000000000000000000000000000000000),
  (84039300000, 975658000000000000000000000000000000000000000000),
  (86223300000, 1082930000000000000000000000000000000000000000000),
  (88091400000, 1180920000000000000000000000000000000000000000000),
  (90610300000, 1322480000000000000000000000000000000000000000000),
  (93093300000, 1470900000000000000000000000000000000000000000000),
  (96226100000, 1673440000000000000000000000000000000000000000000),
  (98725800000, 1846590000000000000000000000000000000000000000000),
  (102411000000, 2119270000000000000000000000000000000000000000000),
  (104258000000, 2264720000000000000000000000000000000000000000000),
  (107091000000, 2501820000000000000000000000000000000000000000000),
  (110000000000, 2763740000000000000000000000000000000000000000000),
  (113340000000, 3075370000000000000000000000000000000000000000000),
  (115675000000, 3307770000000000000000000000000000000000000000000),
  (118541000000, 3609940000000000000000000000000000000000000000000),
  (122425000000, 4041130000000000000000000000000000000000000000000),
  (126156000000, 4482650000000000000000000000000000000000000000000),
  (130000000000, 4972410000000000000000000000000000000000000000000),
  (132431000000, 5291420000000000000000000000000000000000000000000),
  (136163000000, 5808720000000000000000000000000000000000000000000),
  (141213000000, 6559160000000000000000000000000000000000000000000),
  (144290000000, 7038820000000000000000000000000000000000000000000),
  (148072000000, 7660920000000000000000000000000000000000000000000),
  (152440000000, 8416120000000000000000000000000000000000000000000),
  (157439000000, 9332410000000000000000000000000000000000000000000),
  (162443000000, 10306400000000000000000000000000000000000000000000),
  (167443000000, 11335800000000000000000000000000000000000000000000),
  (172447000000, 12424300000000000000000000000000000000000000000000),
  (177446000000, 13569500000000000000000000000000000000000000000000),
  (184932000000, 15393300000000000000000000000000000000000000000000),
  (192452000000, 17360900000000000000000000000000000000000000000000),
  (200000000000, 19473200000000000000000000000000000000000000000000),
  (207454000000, 21681400000000000000000000000000000000000000000000),
  (214942000000, 24031000000000000000000000000000000000000000000000),
  (224944000000, 27366200000000000000000000000000000000000000000000),
  (234947000000, 30910500000000000000000000000000000000000000000000),
  (244949000000, 34644200000000000000000000000000000000000000000000),
  (254951000000, 38540400000000000000000000000000000000000000000000),
  (270000000000, 44653100000000000000000000000000000000000000000000),
  (300000000000, 57069100000000000000000000000000000000000000000000),
  (310000000000, 61084600000000000000000000000000000000000000000000),
  (320000000000, 64939700000000000000000000000000000000000000000000),
  (330000000000, 68575500000000000000000000000000000000000000000000),
  (340000000000, 71937500000000000000000000000000000000000000000000),
  (350000000000, 74977600000000000000000000000000000000000000000000),
  (360000000000, 77656700000000000000000000000000000000000000000000),
  (370000000000, 79945800000000000000000000000000000000000000000000),
  (380000000000, 81827300000000000000000000000000000000000000000000)]
def dhe3Rows4 : List (Nat × Nat) := [
  (390000000000, 83294900000000000000000000000000000000000000000000),
  (404000000000, 84664600000000000000000000000000000000000000000000),
  (417000000000, 85256300000000000000000000000000000000000000000000),
  (423000000000, 85323700000000000000000000000000000000000000000000),
  (434971000000, 85066000000000000000000000000000000000000000000000),
  (444972000000, 84559000000000000000000000000000000000000000000000),
  (460000000000, 83350200000000000000000000000000000000000000000000),
  (474974000000, 81623000000000000000000000000000000000000000000000),
  (494975000000, 78828200000000000000000000000000000000000000000000),
  (500000000000, 78074500000000000000000000000000000000000000000000),
  (524404000000, 73747000000000000000000000000000000000000000000000),
  (550000000000, 69659400000000000000000000000000000000000000000000),
  (574456000000, 65310700000000000000000000000000000000000000000000),
  (624500000000, 57347600000000000000000000000000000000000000000000),
  (650000000000, 53708300000000000000000000000000000000000000000000),
  (674537000000, 50401500000000000000000000000000000000000000000000),
  (700000000000, 47298400000000000000000000000000000000000000000000),
  (724569000000, 44537100000000000000000000000000000000000000000000),
  (750000000000, 41936900000000000000000000000000000000000000000000),
  (774597000000, 39641500000000000000000000000000000000000000000000),
  (800000000000, 37471800000000000000000000000000000000000000000000),
  (824621000000, 35559400000000000000000000000000000000000000000000),
  (850000000000, 33744500000000000000000000000000000000000000000000),
  (887231000000, 31369900000000000000000000000000000000000000000000),
  (912248000000, 29932500000000000000000000000000000000000000000000),
  (950000000000, 27972100000000000000000000000000000000000000000000),
  (987259000000, 26266400000000000000000000000000000000000000000000),
  (1024700000000, 24737500000000000000000000000000000000000000000000),
  (1062280000000, 23363200000000000000000000000000000000000000000000),
  (1100000000000, 22124700000000000000000000000000000000000000000000),
  (1150000000000, 20676200000000000000000000000000000000000000000000),
  (1200000000000, 19409600000000000000000000000000000000000000000000),
  (1250000000000, 18295600000000000000000000000000000000000000000000),
  (1300000000000, 17310800000000000000000000000000000000000000000000),
  (1350000000000, 16436000000000000000000000000000000000000000000000),
  (1400000000000, 15655400000000000000000000000000000000000000000000),
  (1450000000000, 14955900000000000000000000000000000000000000000000),
  (1500000000000, 14326800000000000000000000000000000000000000000000),
  (1550000000000, 13759000000000000000000000000000000000000000000000),
  (1624810000000, 13009100000000000000000000000000000000000000000000),
  (1700000000000, 12352100000000000000000000000000000000000000000000),
  (1774820000000, 11784000000000000000000000000000000000000000000000),
  (1850000000000, 11280600000000000000000000000000000000000000000000),
  (1924840000000, 10840600000000000000000000000000000000000000000000),
  (2024850000000, 10327900000000000000000000000000000000000000000000),
  (2124850000000, 9888220000000000000000000000000000000000000000000),
  (2224860000000, 9508700000000000000000000000000000000000000000000),
  (2350000000000, 9102820000000000000000000000000000000000000000000),
  (2474870000000, 8762100000000000000000000000000000000000000000000),
  (2600000000000, 8471540000000000000000000000000000000000000000000),
  (2749550000000, 8182330000000000000000000000000000000000000000000),
  (2900000000000, 7938870000000000000000000000000000000000000000000),
  (3000000000000, 7801610000000000000000000000000000000000000000000),
  (3200000000000, 7574480000000000000000000000000000000000000000000),
  (3450000000000, 7364400000000000000000000000000000000000000000000),
  (3700000000000, 7220980000000000000000000000000000000000000000000),
  (4073080000000, 7096140000000000000000000000000000000000000000000),
  (4823380000000, 6899510000000000000000000000000000000000000000000),
  (5700000000000, 6751300000000000000000000000000000000000000000000),
  (6200000000000, 6623750000000000000000000000000000000000000000000)]
def dhe3Rows5 : List (Nat × Nat) := [
  (7200000000000, 6290870000000000000000000000000000000000000000000),
  (9700000000000, 5405660000000000000000000000000000000000000000000),
  (10450000000000, 5142350000000000000000000000000000000000000000000),
  (10749900000000, 5061390000000000000000000000000000000000000000000),
  (10949900000000, 5032810000000000000000000000000000000000000000000),
  (11000000000000, 5029590000000000000000000000000000000000000000000),
  (11149900000000, 5042790000000000000000000000000000000000000000000),
  (11249900000000, 5068120000000000000000000000000000000000000000000),
  (11349900000000, 5109150000000000000000000000000000000000000000000),
  (11500000000000, 5197590000000000000000000000000000000000000000000),
  (11800000000000, 5422990000000000000000000000000000000000000000000),
  (11900000000000, 5484040000000000000000000000000000000000000000000),
  (12000000000000, 5527380000000000000000000000000000000000000000000),
  (12100000000000, 5550240000000000000000000000000000000000000000000),
  (12200000000000, 5552000000000000000000000000000000000000000000000),
  (12300000000000, 5533430000000000000000000000000000000000000000000),
  (12449900000000, 5470180000000000000000000000000000000000000000000),
  (12649900000000, 5346190000000000000000000000000000000000000000000),
  (13000000000000, 5107280000000000000000000000000000000000000000000),
  (13250000000000, 4967330000000000000000000000000000000000000000000),
  (13500000000000, 4860870000000000000000000000000000000000000000000),
  (13750000000000, 4785260000000000000000000000000000000000000000000),
  (14124400000000, 4717430000000000000000000000000000000000000000000),
  (14500000000000, 4658050000000000000000000000000000000000000000000),
  (14750000000000, 4591980000000000000000000000000000000000000000000),
  (15250000000000, 4428540000000000000000000000000000000000000000000),
  (15500000000000, 4379980000000000000000000000000000000000000000000),
  (15750000000000, 4366860000000000000000000000000000000000000000000),
  (16000000000000, 4385830000000000000000000000000000000000000000000),
  (16250000000000, 4430970000000000000000000000000000000000000000000),
  (16500000000000, 4496550000000000000000000000000000000000000000000),
  (16874500000000, 4623290000000000000000000000000000000000000000000),
  (17624600000000, 4922420000000000000000000000000000000000000000000),
  (18250000000000, 5172060000000000000000000000000000000000000000000),
  (18750000000000, 5347070000000000000000000000000000000000000000000),
  (19250000000000, 5491750000000000000000000000000000000000000000000),
  (19750000000000, 5604440000000000000000000000000000000000000000000),
  (20000000000000, 5649320000000000000000000000000000000000000000000)]
/-- All data rows of `data/cross_sections/D_He3_He_p.txt`. -/
def dhe3Rows : List (Nat × Nat) :=
  dhe3Rows0 ++
  dhe3Rows1 ++
  dhe3Rows2 ++
  dhe3Rows3 ++
  dhe3Rows4 ++
  dhe3Rows5

end TNS.Data
