/-
Generated by scripts/gen_xs.py: at the nodes, square roots of chi of the Bosch-Hale formula (1e-12) and
lower and upper bounds of chi^(5/2) exp(3 chi) (1e-12).
-/

set_option autoImplicit false
set_option maxRecDepth 100000

namespace TNS.Data

def yDT : List (List Nat) := [
  [1261792535257, 1348233378531, 1469208834944, 1637306995245, 1854656223487, 2104728714388, 2377294967744, 2675989099973, 3007439082015],
  [1263467590110, 1350549369627, 1472462174440, 1641734226040, 1860047658979, 2110674706675, 2383765949943, 2683131941921, 3015398358219],
  [1265127701845, 1352846976820, 1475689315184, 1646118737196, 1865371222560, 2116539191028, 2390149804947, 2690180668190, 3023253851811],
  [1266773305504, 1355126637127, 1478890825112, 1650461321564, 1870628520852, 2122324501649, 2396449070196, 2697137969799, 3031008496584],
  [1268404814642, 1357388769759, 1482067249592, 1654762745852, 1875821109318, 2128032875425, 2402666171306, 2704006420562, 3038665100014],
  [1270022622762, 1359633777161, 1485219112635, 1659023752098, 1880950494259, 2133666457079, 2408803428581, 2710788483888, 3046226350516],
  [1271627104628, 1361862045965, 1488346918012, 1663245059028, 1886018134713, 2139227304009, 2414863063057, 2717486519101, 3053694824179],
  [1273218617482, 1364073947870, 1491451150307, 1667427363317, 1891025444259, 2144717390821, 2420847202122, 2724102787297, 3061072991023],
  [1274797502156, 1366269840466, 1494532275903, 1671571340758, 1895973792739, 2150138613587, 2426757884742, 2730639456802, 3068363220828],
  [1276364084098, 1368450067992, 1497590743904, 1675677647336, 1900864507907, 2155492793834, 2432597066328, 2737098608253, 3075567788564],
  [1277918674326, 1370614962046, 1500626987001, 1679746920235, 1905698876989, 2160781682302, 2438366623275, 2743482239326, 3082688879453],
  [1279461570304, 1372764842235, 1503641422285, 1683779778768, 1910478148188, 2166006962470, 2444068357193, 2749792269150, 3089728593697],
  [1280993056750, 1374900016797, 1506634452011, 1687776825241, 1915203532116, 2171170253875, 2449703998863, 2756030542437, 3096688950892],
  [1282513406389, 1377020783167, 1509606464318, 1691738645757, 1919876203159, 2176273115232, 2455275211931, 2762198833330, 3103571894164],
  [1284022880655, 1379127428513, 1512557833906, 1695665810966, 1924497300798, 2181317047374, 2460783596366, 2768298849007, 3110379294033],
  [1285521730328, 1381220230236, 1515488922673, 1699558876765, 1929067930855, 2186303496026, 2466230691698, 2774332233064, 3117112952040],
  [1287010196144, 1383299456435, 1518400080316, 1703418384947, 1933589166706, 2191233854409, 2471617980051, 2780300568672, 3123774604143],
  [1288488509349, 1385365366348, 1521291644902, 1707244863811, 1938062050427, 2196109465708, 2476946888989, 2786205381551, 3130365923913],
  [1289956892219, 1387418210759, 1524163943397, 1711038828730, 1942487593904, 2200931625391, 2482218794186, 2792048142754, 3136888525523],
  [1291415558548, 1389458232391, 1527017292179, 1714800782686, 1946866779893, 2205701583406, 2487435021937, 2797830271285, 3143343966573],
  [1292864714096, 1391485666260, 1529851997511, 1718531216765, 1951200563035, 2210420546250, 2492596851516, 2803553136563, 3149733750739],
  [1294304557014, 1393500740023, 1532668355998, 1722230610627, 1955489870839, 2215089678932, 2497705517396, 2809218060738, 3156059330268],
  [1295735278238, 1395503674298, 1535466655009, 1725899432947, 1959735604612, 2219710106819, 2502762211337, 2814826320875, 3162322108329],
  [1297157061856, 1397494682964, 1538247173092, 1729538141824, 1963938640365, 2224282917394, 2507768084358, 2820379151007, 3168523441238],
  [1298570085455, 1399473973451, 1541010180349, 1733147185173, 1968099829676, 2228809161909, 2512724248588, 2825877744078, 3174664640543],
  [1299974520445, 1401441747008, 1543755938804, 1736727001087, 1972220000521, 2233289856962, 2517631779024, 2831323253774, 3180746975007],
  [1301370532358, 1403398198960, 1546484702750, 1740278018184, 1976299958074, 2237725985977, 2522491715178, 2836716796249, 3186771672470],
  [1302758281138, 1405343518945, 1549196719073, 1743800655935, 1980340485471, 2242118500625, 2527305062645, 2842059451762, 3192739921623],
  [1304137921404, 1407277891149, 1551892227569, 1747295324967, 1984342344552, 2246468322151, 2532072794573, 2847352266221, 3198652873671],
  [1305509602703, 1409201494517, 1554571461231, 1750762427355, 1988306276568, 2250776342653, 2536795853067, 2852596252646, 3204511643919],
  [1306873469745, 1411114502962, 1557234646538, 1754202356900, 1992233002864, 2255043426281, 2541475150506, 2857792392553, 3210317313271],
  [1308229662625, 1413017085559, 1559882003716, 1757615499388, 1996123225537, 2259270410386, 2546111570799, 2862941637266, 3216070929651],
  [1309578317036, 1414909406726, 1562513746995, 1761002232839, 1999977628064, 2263458106602, 2550705970567, 2868044909162, 3221773509347],
  [1310919564458, 1416791626408, 1565130084851, 1764362927742, 2003796875914, 2267607301887, 2555259180272, 2873103102851, 3227426038294],
  [1312253532353, 1418663900235, 1567731220232, 1767697947277, 2007581617131, 2271718759502, 2559772005285, 2878117086293, 3233029473287],
  [1313580344336, 1420526379688, 1570317350780, 1771007647531, 2011332482894, 2275793219947, 2564245226894, 2883087701865, 3238584743134],
  [1314900120340, 1422379212248, 1572888669038, 1774292377702, 2015050088065, 2279831401850, 2568679603272, 2888015767369, 3244092749752],
  [1316212976774, 1424222541538, 1575445362649, 1777552480287, 2018735031708, 2283834002819, 2573075870391, 2892902076994, 3249554369211],
  [1317519026672, 1426056507464, 1577987614543, 1780788291276, 2022387897591, 2287801700247, 2577434742886, 2897747402229, 3254970452727],
  [1318818379834, 1427881246345, 1580515603123, 1784000140318, 2026009254670, 2291735152082, 2581756914889, 2902552492733, 3260341827607],
  [1320111142953, 1429696891037, 1583029502430, 1787188350901, 2029599657559, 2295634997562, 2586043060811, 2907318077163, 3265669298145],
  [1321397419748, 1431503571053, 1585529482309, 1790353240507, 2033159646976, 2299501857914, 2590293836097, 2912044863963, 3270953646488],
  [1322677311081, 1433301412679, 1588015708570, 1793495120770, 2036689750176, 2303336337023, 2594509877931, 2916733542117, 3276195633444],
  [1323950915066, 1435090539082, 1590488343132, 1796614297623, 2040190481372, 2307139022069, 2598691805929, 2921384781861, 3281395999268],
  [1325218327181, 1436871070412, 1592947544166, 1799711071446, 2043662342135, 2310910484137, 2602840222775, 2925999235373, 3286555464407],
  [1326479640370, 1438643123908, 1595393466237, 1802785737197, 2047105821781, 2314651278798, 2606955714849, 2930577537421, 3291674730208],
  [1327734945137, 1440406813985, 1597826260424, 1805838584550, 2050521397748, 2318361946666, 2611038852817, 2935120305990, 3296754479597],
  [1328984329639, 1442162252336, 1600246074457, 1808869898019, 2053909535957, 2322043013926, 2615090192189, 2939628142874, 3301795377728],
  [1330227879774, 1443909548012, 1602653052823, 1811879957082, 2057270691155, 2325694992849, 2619110273865, 2944101634247, 3306798072606],
  [1331465679267, 1445648807507, 1605047336890, 1814869036301, 2060605307259, 2329318382271, 2623099624645, 2948541351207, 3311763195676],
  [1332697809744, 1447380134845, 1607429065010, 1817837405431, 2063913817673, 2332913668064, 2627058757726, 2952947850293, 3316691362393],
  [1333924350811, 1449103631649, 1609798372625, 1820785329537, 2067196645605, 2336481323579, 2630988173167, 2957321673988, 3321583172764],
  [1335145380127, 1450819397223, 1612155392364, 1823713069097, 2070454204366, 2340021810072, 2634888358346, 2961663351192, 3326439211869],
  [1336360973470, 1452527528617, 1614500254144, 1826620880105, 2073686897664, 2343535577117, 2638759788386, 2965973397679, 3331260050358],
  [1337571204803, 1454228120703, 1616833085254, 1829509014170, 2076895119885, 2347023062992, 2642602926572, 2970252316535, 3336046244931],
  [1338776146340, 1455921266233, 1619154010448, 1832377718616, 2080079256361, 2350484695061, 2646418224741, 2974500598575, 3340798338793],
  [1339975868602, 1457607055911, 1621463152025, 1835227236573, 2083239683639, 2353920890128, 2650206123669, 2978718722749, 3345516862092],
  [1341170440475, 1459285578445, 1623760629912, 1838057807067, 2086376769727, 2357332054789, 2653967053428, 2982907156520, 3350202332344],
  [1342359929266, 1460956920615, 1626046561738, 1840869665110, 2089490874345, 2360718585757, 2657701433737, 2987066356241, 3354855254835],
  [1343544400754, 1462621167323, 1628321062910, 1843663041785, 2092582349159, 2364080870187, 2661409674295, 2991196767506, 3359476123007],
  [1344723919240, 1464278401650, 1630584246681, 1846438164327, 2095651538009, 2367419285977, 2665092175105, 2995298825489, 3364065418834],
  [1345898547597, 1465928704911, 1632836224220, 1849195256206, 2098698777130, 2370734202063, 2668749326778, 2999372955276, 3368623613177],
  [1347068347311, 1467572156700, 1635077104678, 1851934537203, 2101724395370, 2374025978702, 2672381510832, 3003419572174, 3373151166130],
  [1348233378531, 1469208834944, 1637306995245, 1854656223487, 2104728714388, 2377294967744, 2675989099973, 3007439082015, 3377648527349],
  [1349393700105, 1470838815948, 1639526001214, 1857360527691, 2107712048861, 2380541512890, 2679572458371, 3011431881450, 3382116136371],
  [1350549369627, 1472462174440, 1641734226040, 1860047658979, 2110674706675, 2383765949943, 2683131941921, 3015398358219, 3386554422918]]

def glDT : List (List Nat) := [
  [379565808804653, 1040207367254278, 4444150623900017, 36592064188967548, 665135391431041916, 24411912632786302118, 1752677501725240689693, 293266718677440062259162, 149678991867287053188637436],
  [386971496146250, 1069031150108398, 4624457318890441, 38740447838043828, 716649697708191353, 26692187165997855842, 1948699682184854877130, 333368655950540781792153, 175128570861320917168135799],
  [394456805182312, 1098434261520150, 4810724279465469, 40995675855256457, 771529197405034397, 29154677763012979348, 2164009287259152255285, 378415204287700404807468, 204555405487922638135485238],
  [402022733491679, 1128426150206030, 5003115209768808, 43362136578926070, 829954034474075086, 31811665692202544202, 2400264739566423673501, 428954067969494813491492, 238529599527959524164762810],
  [409670270967384, 1159016380258216, 5201797480276596, 45844359437711414, 892111982982909594, 34676121206286081685, 2659248283327530640323, 485587255041829266389455, 277696055466676687436033004],
  [417400400658306, 1190214633253948, 5406942188975449, 48447018181949233, 958198694724784765, 37761735386202483873, 2942873966184201790682, 548975880142824015874010, 322783439388153378441073962],
  [425214099528357, 1222030710206986, 5618724222129653, 51174934159592992, 1028417952968508880, 41082953196150806315, 3253196063106828790672, 619845345191329231965909, 374614125591997881802136755],
  [433112339209419, 1254474533444182, 5837322316067108, 54033079642301200, 1102981932408226249, 44655007779537778147, 3592417963591087676308, 698990924072361711698625, 434115218374367900713774815],
  [441096086662324, 1287556148567063, 6062919119496826, 57026581200751071, 1182111465517922698, 48493956039472375810, 3962901543732749054651, 787283779536729083443986, 502330757320468364621349409],
  [449166304796701, 1321285726279431, 6295701256194608, 60160723121631521, 1266036315515820800, 52616715534089100001, 4367177046004407155398, 885677441940211089002579, 580435221901560661603620009],
  [457323953086103, 1355673564271071, 6535859388282231, 63440950881304804, 1354995455720841255, 57041102740275743440, 4807953490522390461737, 995214781215989810574938, 669748461492662264353858082],
  [465569988115840, 1390730088902524, 6783588280019110, 66872874665588035, 1449237355901268377, 61785872715398022909, 5288129641929530718717, 1117035505624231351943112, 771752188146529500991629226],
  [473905364082368, 1426465857132982, 7039086862115569, 70462272939311523, 1549020275398116827, 66870760205909254558, 5810805558082551561178, 1252384222859436678448094, 888108181377995888019109669],
  [482331033285876, 1462891558192435, 7302558296700365, 74215096066694354, 1654612563141384021, 72316522240743254744, 6379294746445490541238, 1402619100678476335188610, 1020678367481197469384543379],
  [490847946615284, 1500018015358664, 7574210042768608, 78137469984304453, 1766292965124518672, 78144982258853052373, 6997136956252966339956, 1569221167089367157055253, 1171546949535937901444601442],
  [499457053922468, 1537856187699198, 7854253922098152, 82235699927174444, 1884350938724958062, 84379075820096418863, 7668111634989129942287, 1753804292425797770235465, 1343044779886497983716419540],
  [508159304476408, 1576417171742921, 8142906185747184, 86516274203274388, 2009086974893447125, 91042897927704318072, 8396252078766190779634, 1958125897307697416076100, 1537776182740227124606844663],
  [516955647315766, 1615712203236327, 8440387581515076, 90985868025165574, 2140812927475859227, 98161752037754729364, 9185860307859475469862, 2184098434423098877547410, 1758648452734584318010990975],
  [525847031604850, 1655752658761462, 8746923420925262, 95651347393001946, 2279852350511634374, 105762200776847481284, 10041522699168610482301, 2433801693463127782965988, 2008904273293810973839026633],
  [534834406990868, 1696550057556562, 9062743648146112, 100519773036294186, 2426540843240344278, 113872118441639566983, 10968126409616003524982, 2709495982312347933116204, 2292157320536696932341377560],
  [543918723898011, 1738116063021122, 9388082908200075, 105598404402938372, 2581226402996898697, 122520745310962188858, 11970876624291157411977, 3013636240390197337670674, 2612431338871629283336998339],
  [553100933846912, 1780462484516075, 9723180616804205, 110894703711296999, 2744269786535136748, 131738743846170770018, 13055314665937283973338, 3348887142931458169555868, 2974202999051476323701471624],
  [562381989738346, 1823601279001546, 10068281029543345, 116416340059034663, 2916044879120810313, 141558256801205258768, 14227337002359229026363, 3718139258843756484343958, 3382448874607557385129069381],
  [571762846112190, 1867544552630643, 10423633313493254, 122171193580890724, 3096939072508672154, 152012967339077320032, 15493215191982410273707, 4124526327501226306925382, 3842696900578784566189016034],
  [581244459415712, 1912304562492748, 10789491617156194, 128167359675127328, 3287353651215096345, 163138161165386530597, 16859616804624392398061, 4571443724785757978789273, 4361082705715741332855392733],
  [590827788252076, 1957893718224787, 11166115142532308, 134413153276952096, 3487704187573512172, 174970790786431302766, 18333627364099995024456, 5062568191239550799915718, 4944411244323133621507395628],
  [600513793583695, 2004324583705650, 11553768217555019, 140917113200242754, 3698420945737030497, 187549541888794361531, 19922773349384417500405, 5601878899615125982628251, 5600224183917365514112077584],
  [610303438990531, 2051609878603252, 11952720368357308, 147688006540867321, 3919949294455342610, 200914901984686647760, 21635046306101022210302, 6193679944386752582819091, 6336873545457066404829429965],
  [620197690852018, 2099762480179650, 12363246393496582, 154734833127371851, 4152750129428130370, 215109231277999776695, 23478928107147540237219, 6842624338565118588234923, 7163602126665571103963335998],
  [630197518561133, 2148795424810182, 12785626436648945, 162066830042472164, 4397300304669823782, 230176835932187891800, 25463417419362662835939, 7553739609267447447562951, 8090631286589576289618199973],
  [640303894707976, 2198721909727325, 13220146062393574, 169693476210254645, 4654093073547058495, 246164043698328376460, 27598057416914568775222, 8332455087513460927959149, 9129256710017734311339407049],
  [650517795260855, 2249555294657854, 13667096330437916, 177624497036459611, 4923638539579059965, 263119282051542481183, 29892964800942531447684, 9184630993450028352372941, 10291952820291397737805782134],
  [660840199769578, 2301309103371380, 14126773871852964, 185869869118993235, 5206464116739951008, 281093158831763401491, 32358860171629234823146, 10116589423543467451108243, 11592486559234171477971757803],
  [671272091470258, 2353997025561682, 14599480965531954, 194439825019055858, 5503115000317678165, 300138545546036013768, 35007099815847782460512, 11135147351479549526038604, 13046041311275750461817262628],
  [681814457514146, 2407632918259751, 15085525614449819, 203344858092732969, 5814154647556932141, 320310663308024585106, 37849708962686298763115, 12247651760197306094228106, 14669351803023300283083121497],
  [692468289087071, 2462230807691640, 15585221623763756, 212595727400186444, 6140165268523097547, 341667171549908742216, 40899416563515183220288, 13462017031182842394254684, 16480850876048377957950455457],
  [703234581550239, 2517804890883083, 16098888678712885, 222203462677253036, 6481748328269597158, 364268259552575647714, 44169691668638913883977, 14786764719273510531746367, 18500829097046823377658392581],
  [714114334592296, 2574369537263364, 16626852423464382, 232179369353968634, 6839525059025462083, 388176740910995237833, 47674781454361579856112, 16231065852552862117331103, 20751608242503465835290547174],
  [725108552372934, 2631939290445968, 17169444540011971, 242535033684180224, 7214136983446210864, 413458150946142691041, 51429750965059854095785, 17804785900699065171185201, 23257729770970993827741012559],
  [736218243661789, 2690528869877260, 17727002829351024, 253282327883395158, 7606246448992054510, 440180847192566678771, 55450524652732724045967, 19518532564750201742162301, 26046159478959476521720901098],
  [747444421915989, 2750153172484278, 18299871290590510, 264433415403532977, 8016537174019110077, 468416113035221773853, 59753929765143876956148, 21383706547886579052418719, 29146509622121127543852923723],
  [758788105463951, 2810827274377793, 18888400202512060, 276000756220794314, 8445714804613212529, 498238264557958621696, 64357741674930977598160, 23412555475595969607333474, 32591279889086863951068115481],
  [770250317605511, 2872566432608279, 19492946206454200, 287997112225479604, 8894507483397937321, 529724760716774886882, 69280731200655607715758, 25618231142408304772874142, 36416118689392535989415589297],
  [781832086689254, 2935386086829785, 20113872387513694, 300435552666624948, 9363666430701431922, 562956316898163284644, 74542714036069752333437, 28014850267423867798466140, 40660106360188200309756076772],
  [793534446264187, 2999301860918499, 20751548357633361, 313329459696090419, 9853966537072168172, 598017021977547499149, 80164602316357526772042, 30617558961700760447801872, 45366061980487693495812862359],
  [805358435188442, 3064329564900198, 21406350340803691, 326692533940097856, 10366206968176430191, 634994458939383383002, 86168458459060377080325, 33442601102093913416922057, 50580875613881414231970662563],
  [817305097706795, 3130485196353461, 22078661254727323, 340538800193916060, 10901211782734439739, 673979829182885888508, 92577551330168133014119, 36507390836262216760381098, 56355867936060288092193662929],
  [829375483559411, 3197784942513358, 22768870799187468, 354882613153687207, 11459830562812997846, 715068080542911834491, 99416414825453773791223, 39830589436005765795253580, 62747179335698811606151014050],
  [841570648083456, 3266245181712478, 23477375538107526, 369738663243009808, 12042939056090043659, 758358039280767651492, 106710908989262639811465, 43432186743298368016092241, 69816190730093623286506729370],
  [853891652334695, 3335882485137241, 24204578988707079, 385121982519149238, 12651439833429690788, 803952545880759204300, 114488283726731683873599, 47333587453358257412938218, 77629978477689260565875551692],
  [866339563127288, 3406713618818491, 24950891706780593, 401047950620805851, 13286262957228794011, 851958595051120721197, 122777245243821236430877, 51557702493356221338901177, 86261805966729863353323005979],
  [878915453156784, 3478755545038452, 25716731374831830, 417532300854621946, 13948366665242750350, 902487479794080083277, 131608025279689662348270, 56129045781083283765500873, 95791654607262680821950492853],
  [891620401098061, 3552025424392991, 26502522889450889, 434591126308208460, 14638738066872711586, 955654939759833740698, 141012453282197110467111, 61073836635314710327236929, 106306797164797221961497400529],
  [904455491663060, 3626540617281525, 27308698452077413, 452240886059372819, 15358393854502597313, 1011581314051584979622, 151024031585027691157577, 66420108149706636849528510, 117902416559985631080330728745],
  [917421815687982, 3702318685988714, 28135697656132999, 470498411461077628, 16108381028507640321, 1070391698365657290925, 161678013744678946633250, 72197821842563433906718962, 130682273493727171529552410888],
  [930520470251539, 3779377396108453, 28983967579128670, 489380912534158965, 16889777635847889911, 1132216106919019148280, 173011486107001963021935, 78438988908557424929550128, 144759426451684295013346146803],
  [943752558714788, 3857734718704912, 29853962872250643, 508905984405502433, 17703693525782564371, 1197189638882002891660, 185063452785433491894627, 85177798431246748440475336, 160257007919081528499542125396],
  [957119190808198, 3937408831686274, 30746145852937319, 529091613838419521, 18551271117092627665, 1265452649860358721325, 197874924096702536049561, 92450752892628020486508867, 177309060895773320797292700978],
  [970621482723832, 4018418122027358, 31660986596033944, 549956185865938972, 19433686183825038848, 1337150928084428153244, 211489008646702703787135, 100296811399402296459564655, 196061440028020918254872041120],
  [984260557177015, 4100781187264085, 32598963027597370, 571518490493161347, 20352148654258538328, 1412435875927360963179, 225951009161154446342455, 108757540984138048139022264, 216672782010685113395518320037],
  [998037543480146, 4184516837418540, 33560561017419190, 593797729471906985, 21307903425923258241, 1491464696391127318336, 241308522226041598956978, 117877276416272754439986346, 239315550235557511819817424902],
  [1011953577640692, 4269644096945923, 34546274474215720, 616813523195123566, 22302231196665541828, 1574400585034376949857, 257611542033124339398389, 127703288971620060657335168, 264177158915253664867336781467],
  [1026009802375703, 4356182206273898, 35556605441120841, 640585917641234417, 23336449313372415876, 1661412927348625927730, 274912568331367496247040, 138285964580316073519189095, 291461182357842737868797246483],
  [1040207367254278, 4444150623900017, 36592064188967548, 665135391431041916, 24411912632786302118, 1752677501725240689693, 293266718677440062259162, 149678991867287053188637436, 321388655347724383052046051008],
  [1054547428693616, 4533569028127809, 37653169314451190, 690482862985523905, 25530014404197520464, 1848376688043311443289, 312731845194614614380987, 161939560577425438620028427, 354199471054702768676092047849],
  [1069031150108398, 4624457318890441, 38740447838043828, 716649697708191353, 26692187165997855842, 1948699682184854877130, 333368655950540781792153, 175128570861320917168135799, 390153883241539103160383774707]]

def ghDT : List (List Nat) := [
  [379565808809032, 1040207367266551, 4444150623954318, 36592064189438768, 665135391440236653, 24411912633152577855, 1752677501753926763437, 293266718682696693088669, 149678991870236817600185788],
  [386971496150716, 1069031150121020, 4624457318947002, 38740447838543424, 716649697718115798, 26692187166399118398, 1948699682216813780043, 333368655956528844904536, 175128570864779820671321485],
  [394456805186867, 1098434261533127, 4810724279524365, 40995675855785883, 771529197415737560, 29154677763452094923, 2164009287294713025885, 378415204294511763312412, 204555405491971504123885636],
  [402022733496323, 1128426150219369, 5003115209830119, 43362136579486840, 829954034485608684, 31811665692682577607, 2400264739605944307823, 428954067977231705819414, 238529599532690951543057619],
  [409670270972118, 1159016380271926, 5201797480340403, 45844359438305107, 892111982995328174, 34676121206810307831, 2659248283371400308582, 485587255050605356264031, 277696055472196621973533541],
  [417400400663131, 1190214633268035, 5406942189041835, 48447018182577493, 958198694738145825, 37761735386774399812, 2942873966232843200672, 548975880152765537163952, 322783439394582875804895980],
  [425214099533275, 1222030710221459, 5618724222198706, 51174934160257532, 1028417952982872997, 41082953196774143847, 3253196063160700706264, 619845345202576236049595, 374614125599475083606720454],
  [433112339214430, 1254474533459049, 5837322316138915, 54033079643003804, 1102981932423657210, 44655007780216517022, 3592417963650687599820, 698990924085069425516105, 434115218383050247087447942],
  [441096086667429, 1287556148582331, 6062919119571478, 57026581201493594, 1182111465534487639, 48493956040210757547, 3962901543798616082280, 787283779551069386994650, 502330757330535069156479692],
  [449166304801902, 1321285726295108, 6295701256272199, 60160723122415893, 1266036315533590341, 52616715534891642345, 4367177046077125015348, 885677441956374121661254, 580435221913215477137791320],
  [457323953091400, 1355673564287166, 6535859388362856, 63440950882133035, 1354995455739889650, 57041102741147255484, 4807953490602590745150, 995214781234185716251327, 669748461506136570845609467],
  [465569988121234, 1390730088919045, 6783588280102869, 66872874666462211, 1449237355921673662, 61785872716343620903, 5288129642017896313977, 1117035505644692173806644, 771752188162085749826454922],
  [473905364087861, 1426465857149938, 7039086862202562, 70462272940233815, 1549020275419960972, 66870760206934378435, 5810805558179820302678, 1252384222882418414680768, 888108181395931440426709707],
  [482331033291469, 1462891558209834, 7302558296790697, 74215096067667016, 1654612563164753095, 72316522241853685390, 6379294746552459084206, 1402619100704261168004049, 1020678367501848870297366661],
  [490847946620978, 1500018015376515, 7574210042862385, 78137469985329828, 1766292965149503001, 78144982260054929659, 6997136956370494273476, 1569221167118265868057464, 1171546949559685634091391050],
  [499457053928264, 1537856187717510, 7854253922195484, 82235699928254964, 1884350938751652406, 84379075821396260485, 7668111635118144153228, 1753804292458152356075082, 1343044779913771754567202293],
  [508159304482307, 1576417171761704, 8142906185848184, 86516274204412578, 2009086974921950846, 91042897929109039208, 8396252078907690080778, 1958125897343883919284175, 1537776182771511732976552722],
  [516955647321770, 1615712203255590, 8440387581619860, 90985868026364056, 2140812927506276474, 98161752039271663198, 9185860308014535506127, 2184098434463530448429689, 1758648452770426169740055518],
  [525847031610959, 1655752658781213, 8746923421033948, 95651347394263438, 2279852350544074268, 105762200778484400413, 10041522699338388929592, 2433801693508257989477142, 2008904273334825304001008667],
  [534834406997083, 1696550057576812, 9062743648258822, 100519773037621509, 2426540843274921102, 113872118443404705744, 10968126409801745596869, 2709495982362674336748443, 2292157320583575807967078923],
  [543918723904334, 1738116063041880, 9388082908316933, 105598404404334452, 2581226403033732097, 122520745312864266614, 11970876624494201690068, 3013636240446265354566822, 2612431338925150463665237414],
  [553100933853345, 1780462484537351, 9723180616925340, 110894703712764869, 2744269786574351935, 131738743848219015425, 13055314666159068577941, 3348887142993865237295652, 2974202999112513062563235111],
  [562381989744889, 1823601279023350, 10068281029668889, 116416340060577464, 2916044879162538269, 141558256803409435070, 14227337002601298144757, 3718139258913156556172423, 3382448874677089267762025736],
  [571762846118845, 1867544552652985, 10423633313623341, 122171193582511714, 3096939072553049855, 152012967341447751414, 15493215192246421064119, 4124526327578334696573330, 3842696900657909481130566983],
  [581244459422480, 1912304562515639, 10789491617290963, 128167359676829880, 3287353651262266980, 163138161167934129632, 16859616804912122288215, 4571443724871356580520088, 4361082705805688688568131988],
  [590827788258958, 1957893718248236, 11166115142671901, 134413153278739703, 3487704187623625370, 174970790789167598998, 18333627364413349424462, 5062568191334493709976165, 4944411244425278927221680701],
  [600513793590692, 2004324583729669, 11553768217699581, 140917113202119034, 3698420945790242565, 187549541891731531229, 19922773349725437950481, 5601878899720345549918612, 5600224184033246454934165903],
  [610303438997645, 2051609878627851, 11952720368506989, 147688006542836019, 3919949294511816776, 200914901987837544892, 21635046306471894984879, 6193679944503265918347518, 6336873545588400552693223884],
  [620197690859250, 2099762480204841, 12363246393651534, 154734833129436840, 4152750129488037033, 215109231281377965151, 23478928107550605427727, 6842624338694034564735069, 7163602126814275418370890475],
  [630197518568484, 2148795424835976, 12785626436809325, 162066830044637455, 4397300304733340767, 230176835935807678914, 25463417419800423935707, 7553739609409974222596968, 8090631286757788575624767006],
  [640303894715447, 2198721909753733, 13220146062559544, 169693476212524383, 4654093073614371317, 246164043702204847881, 27598057417389702790760, 8332455087670914025860874, 9129256710207836816761570145],
  [650517795268449, 2249555294684887, 13667096330609639, 177624497038838085, 4923638539650362104, 263119282055691537125, 29892964801457899561770, 9184630993623839342541943, 10291952820506043087384088742],
  [660840199777295, 2301309103399050, 14126773872030610, 185869869121484878, 5206464116815444186, 281093158836201794428, 32358860172187893636099, 10116589423735193262437703, 11592486559476311159231563791],
  [671272091478100, 2353997025590001, 14599480965715695, 194439825021665253, 5503115000397572633, 300138545550781387599, 35007099816452995837268, 11135147351690882439646813, 13046041311548666095841631667],
  [681814457522113, 2407632918288731, 15085525614639833, 203344858095464852, 5814154647641446976, 320310663313095515862, 37849708963341550314777, 12247651760430084459174835, 14669351803330637933281644757],
  [692468289095166, 2462230807721294, 15585221623960224, 212595727403045708, 6140165268612460956, 341667171555324780343, 40899416564224189449976, 13462017031439062113618759, 16480850876394185751472499546],
  [703234581558462, 2517804890913422, 16098888678915993, 222203462680244736, 6481748328364046787, 364268259558357361995, 44169691669405638028217, 14786764719555337369193757, 18500829097435592737395742198],
  [714114334600649, 2574369537294402, 16626852423674320, 232179369357097988, 6839525059125245343, 388176740917164260990, 47674781455190246454103, 16231065852862644877291879, 20751608242940176645627361058],
  [725108552381418, 2631939290477717, 17169444540228934, 242535033687452623, 7214136983551585255, 413458150952721767092, 51429750965954964320205, 17804785901039349808838502, 23257729771461163884454106618],
  [736218243670407, 2690528869909733, 17727002829575212, 253282327886816165, 7606246449103287965, 440180847199579712173, 55450524653699071830569, 19518532565123746462714097, 26046159479509215645917067843],
  [747444421924742, 2750153172517488, 18299871290822126, 264433415407108335, 8016537174136481304, 468416113042693880511, 59753929766186565956504, 21383706548296370462591637, 29146509622737196771680468751],
  [758788105472839, 2810827274411754, 18888400202751314, 276000756224529948, 8445714804737011374, 498238264565916181888, 64357741676055439023722, 23412555476045239985613463, 32591279889776740245663388228],
  [770250317614536, 2872566432643004, 19492946206701307, 287997112229381627, 8894507483528465131, 529724760725245600156, 69280731201867619072471, 25618231142900550528877645, 36416118690164482958557649206],
  [781832086698418, 2935386086865289, 20113872387768872, 300435552670699666, 9363666430839001922, 562956316907176226763, 74542714037375457118418, 28014850267962869195731053, 40660106361051345453588649501],
  [793534446273491, 2999301860954794, 20751548357896835, 313329459700344335, 9853966537217105852, 598017021987133181135, 80164602317763455162533, 30617558962290602668675172, 45366061981452112552609069323],
  [805358435197888, 3064329564937300, 21406350341075689, 326692533944537674, 10366206968329073705, 634994458949573812360, 86168458460573467661789, 33442601102739009052446658, 50580875614958223237431688417],
  [817305097716384, 3130485196391384, 22078661255008081, 340538800198548692, 10901211782895140309, 673979829193714632682, 92577551331795755593451, 36507390836967329812927804, 56355867937261743819423102828],
  [829375483569145, 3197784942552116, 22768870799477225, 354882613158519778, 11459830562982120182, 715068080554414086631, 99416414827203753342876, 39830589436776037286367512, 62747179337038421109351733182],
  [841570648093338, 3266245181752087, 23477375538406529, 369738663248049659, 12042939056267966387, 758358039292980298607, 106710908991143281606687, 43432186744139343297306929, 69816190731586263332269680019],
  [853891652344724, 3335882485177714, 24204578989015578, 385121982524403934, 12651439833616806892, 803952545893720897863, 114488283728751799844224, 47333587454275915282624248, 77629978479351307801660720277],
  [866339563137467, 3406713618859845, 24950891707098846, 401047950626283182, 13286262957425511281, 851958595064871950276, 122777245245990172821738, 51557702494357005073839928, 86261805968579336134883328689],
  [878915453167114, 3478755545080703, 25716731375160099, 417532300860329940, 13948366665449491849, 902487479808663250284, 131608025282017328713719, 56129045782174134182035693, 95791654609319393699297824374],
  [891620401108543, 3552025424436153, 26502522889789443, 434591126314155379, 14638738067089916122, 955654939775293239815, 141012453284694010070072, 61073836636503100992802213, 106306797167082953908312976267],
  [904455491673697, 3626540617325615, 27308698452426526, 452240886065567173, 15358393854730719927, 1011581314067967278004, 151024031587704952830889, 66420108151000611572129041, 117902416562524308644394450101],
  [917421815698775, 3702318686033748, 28135697656492953, 470498411467528175, 16108381028747152787, 1070391698383011012754, 161678013747548358166157, 72197821843971646636751380, 130682273496545068183396453844],
  [930520470262490, 3779377396154448, 28983967579499751, 489380912540874721, 16889777636099281248, 1132216106937395161754, 173011486110076006136106, 78438988910089182215486714, 144759426454810248094656555076],
  [943752558725898, 3857734718751884, 29853962872633146, 508905984412492676, 17703693526046341368, 1197189638901454399012, 185063452788725378877680, 85177798432912054587746271, 160257007922547175252334780353],
  [957119190819470, 3937408831734240, 30746145853331542, 529091613845693796, 18551271117369315416, 1265452649880941351962, 197874924100226248115160, 92450752894437625576328940, 177309060899613355158010833534],
  [970621482735266, 4018418122076336, 31660986596440194, 549956185873507099, 19433686184115181309, 1337150928106200060089, 211489008650473031234531, 100296811401367747393555892, 196061440032273370172513458123],
  [984260557188613, 4100781187314092, 32598963028015960, 571518490501033427, 20352148654562698877, 1412435875950382922324, 225951009165187030590348, 108757540986271742883416948, 216672782015391652635216319053],
  [998037543491911, 4184516837469593, 33560561017850441, 593797729480093405, 21307903426242020259, 1491464696415462832095, 241308522230352976529908, 117877276418587999652695471, 239315550240763778375904841543],
  [1011953577652624, 4269644096998041, 34546274474659957, 616813523203635007, 22302231196999509295, 1574400585060092353319, 257611542037731987945899, 127703288974131132890992563, 264177158921009628304762406089],
  [1026009802387805, 4356182206327099, 35556605441578399, 640585917650081862, 23336449313722213972, 1661412927375790498918, 274912568336289882679855, 138285964583038284202585016, 291461182364203088126745028337],
  [1040207367266551, 4444150623954318, 36592064189438768, 665135391440236653, 24411912633152577855, 1752677501753926763437, 293266718682696693088669, 149678991870236817600185788, 321388655354748955479025343616],
  [1054547428706063, 4533569028183230, 37653169314936420, 690482862995077534, 25530014404580943315, 1848376688073594528907, 312731845200226088352453, 161939560580620349077764463, 354199471062457006327962138259],
  [1069031150121020, 4624457318947002, 38740447838543424, 716649697718115798, 26692187166399118398, 1948699682216813780043, 333368655956528844904536, 175128570864779820671321485, 390153883250094559681715404122]]

def yDDn : List (List Nat) := [
  [1081587590179, 1249616979718, 1428402155186, 1620239161539, 1829022406776, 2059104458700, 2314771666919, 2600234793816, 2919789473141],
  [1085290750575, 1253555133157, 1432603084097, 1624778301400, 1833996952457, 2064613213121, 2320910656623, 2607099991659, 2927480842390],
  [1088941695939, 1257437563881, 1436745430760, 1629255644791, 1838905165718, 2070049510520, 2326969533556, 2613875978107, 2935072483311],
  [1092541942752, 1261265905745, 1440830922926, 1633672996401, 1843748956173, 2075415413260, 2332950561786, 2620565264317, 2942567197165],
  [1096092940996, 1265041721321, 1444861212027, 1638032081310, 1848530149999, 2080712894438, 2338855908020, 2627170253862, 2949967665447],
  [1099596078073, 1268766505995, 1448837877616, 1642334549644, 1853250494783, 2085943843028, 2344687647175, 2633693248873, 2957276456708],
  [1103052682429, 1272441691780, 1452762431494, 1646581980888, 1857911664022, 2091110068664, 2350447767566, 2640136455746, 2964496032894],
  [1106464026921, 1276068650848, 1456636321545, 1650775887897, 1862515261299, 2096213306074, 2356138175722, 2646501990449, 2971628755251],
  [1109831331934, 1279648698834, 1460460935296, 1654917720621, 1867062824170, 2101255219215, 2361760700872, 2652791883469, 2978676889816],
  [1113155768288, 1283183097902, 1464237603241, 1659008869578, 1871555827782, 2106237405123, 2367317099124, 2659008084413, 2985642612537],
  [1116438459932, 1286673059613, 1467967601934, 1663050669080, 1875995688247, 2111161397495, 2372809057366, 2665152466308, 2992528014051],
  [1119680486459, 1290119747601, 1471652156879, 1667044400252, 1880383765784, 2116028670046, 2378238196905, 2671226829618, 2999335104153],
  [1122882885453, 1293524280070, 1475292445222, 1670991293846, 1884721367660, 2120840639632, 2383606076868, 2677232905991, 3006065815962],
  [1126046654680, 1296887732135, 1478889598277, 1674892532871, 1889009750936, 2125598669181, 2388914197386, 2683172361773, 3012722009828],
  [1129172754129, 1300211138013, 1482444703880, 1678749255052, 1893250125035, 2130304070427, 2394164002575, 2689046801296, 3019305476993],
  [1132262107927, 1303495493072, 1485958808602, 1682562555133, 1897443654147, 2134958106482, 2399356883326, 2694857769958, 3025817943014],
  [1135315606134, 1306741755761, 1489432919815, 1686333487035, 1901591459488, 2139561994234, 2404494179928, 2700606757115, 3032261070983],
  [1138334106421, 1309950849413, 1492868007634, 1690063065879, 1905694621411, 2144116906615, 2409577184524, 2706295198800, 3038636464550],
  [1141318435644, 1313123663943, 1496265006744, 1693752269886, 1909754181393, 2148623974710, 2414607143422, 2711924480266, 3044945670755],
  [1144269391326, 1316261057446, 1499624818106, 1697402042161, 1913771143902, 2153084289761, 2419585259267, 2717495938390, 3051190182707],
  [1147187743046, 1319363857698, 1502948310574, 1701013292366, 1917746478151, 2157498905034, 2424512693087, 2723010863933, 3057371442088],
  [1150074233747, 1322432863569, 1506236322404, 1704586898303, 1921681119747, 2161868837588, 2429390566216, 2728470503659, 3063490841528],
  [1152929580967, 1325468846356, 1509489662684, 1708123707395, 1925575972250, 2166195069940, 2434219962106, 2733876062349, 3069549726832],
  [1155754478001, 1328472551039, 1512709112678, 1711624538089, 1929431908633, 2170478551627, 2439001928043, 2739228704683, 3075549399086],
  [1158549594988, 1331444697470, 1515895427093, 1715090181169, 1933249772671, 2174720200690, 2443737476756, 2744529557029, 3081491116645],
  [1161315579950, 1334385981486, 1519049335276, 1718521401008, 1937030380236, 2178920905069, 2448427587944, 2749779709129, 3087376097008],
  [1164053059762, 1337297075975, 1522171542343, 1721918936738, 1940774520540, 2183081523922, 2453073209718, 2754980215689, 3093205518596],
  [1166762641071, 1340178631868, 1525262730244, 1725283503361, 1944482957287, 2187202888875, 2457675259961, 2760132097889, 3098980522426],
  [1169444911172, 1343031279091, 1528323558777, 1728615792800, 1948156429784, 2191285805198, 2462234627617, 2765236344807, 3104702213700],
  [1172100438822, 1345855627458, 1531354666538, 1731916474891, 1951795653976, 2195331052925, 2466752173914, 2770293914769, 3110371663314],
  [1174729775029, 1348652267520, 1534356671827, 1735186198321, 1955401323437, 2199339387910, 2471228733521, 2775305736630, 3115989909275],
  [1177333453785, 1351421771370, 1537330173503, 1738425591521, 1958974110301, 2203311542830, 2475665115638, 2780272710987, 3121557958062],
  [1179911992765, 1354164693405, 1540275751795, 1741635263508, 1962514666147, 2207248228139, 2480062105043, 2785195711326, 3127076785900],
  [1182465893994, 1356881571048, 1543193969072, 1744815804683, 1966023622844, 2211150132965, 2484420463077, 2790075585122, 3132547339982],
  [1184995644478, 1359572925439, 1546085370572, 1747967787593, 1969501593344, 2215017925970, 2488740928576, 2794913154868, 3137970539624],
  [1187501716799, 1362239262081, 1548950485096, 1751091767649, 1972949172440, 2218852256163, 2493024218771, 2799709219065, 3143347277362],
  [1189984569683, 1364881071467, 1551789825665, 1754188283811, 1976366937486, 2222653753671, 2497271030123, 2804464553161, 3148678420000],
  [1192444648546, 1367498829667, 1554603890145, 1757257859238, 1979755449083, 2226423030478, 2501482039137, 2809179910437, 3153964809600],
  [1194882386002, 1370092998887, 1557393161844, 1760301001907, 1983115251723, 2230160681123, 2505657903126, 2813856022861, 3159207264431],
  [1197298202359, 1372664028006, 1560158110076, 1763318205199, 1986446874417, 2233867283363, 2509799260936, 2818493601894, 3164406579867],
  [1199692506077, 1375212353083, 1562899190698, 1766309948461, 1989750831276, 2237543398811, 2513906733645, 2823093339258, 3169563529248],
  [1202065694218, 1377738397840, 1565616846628, 1769276697538, 1993027622077, 2241189573541, 2517980925226, 2827655907672, 3174678864694],
  [1204418152869, 1380242574127, 1568311508327, 1772218905282, 1996277732796, 2244806338659, 2522022423174, 2832181961548, 3179753317889],
  [1206750257541, 1382725282362, 1570983594268, 1775137012034, 1999501636121, 2248394210857, 2526031799112, 2836672137666, 3184787600824],
  [1209062373558, 1385186911948, 1573633511382, 1778031446086, 2002699791932, 2251953692934, 2530009609363, 2841127055801, 3189782406506],
  [1211354856426, 1387627841675, 1576261655476, 1780902624123, 2005872647774, 2255485274301, 2533956395501, 2845547319340, 3194738409638],
  [1213628052177, 1390048440108, 1578868411642, 1783750951643, 2009020639294, 2258989431453, 2537872684874, 2849933515858, 3199656267266],
  [1215882297711, 1392449065943, 1581454154644, 1786576823355, 2012144190665, 2262466628429, 2541758991104, 2854286217673, 3204536619399],
  [1218117921116, 1394830068367, 1584019249280, 1789380623567, 2015243714993, 2265917317248, 2545615814570, 2858605982383, 3209380089600],
  [1220335241970, 1397191787384, 1586564050741, 1792162726552, 2018319614704, 2269341938327, 2549443642860, 2862893353365, 3214187285557],
  [1222534571637, 1399534554142, 1589088904947, 1794923496895, 2021372281909, 2272740920878, 2553242951212, 2867148860270, 3218958799619],
  [1224716213549, 1401858691230, 1591594148865, 1797663289829, 2024402098766, 2276114683293, 2557014202936, 2871373019480, 3223695209318],
  [1226880463472, 1404164512979, 1594080110823, 1800382451559, 2027409437810, 2279463633507, 2560757849810, 2875566334561, 3228397077867],
  [1229027609765, 1406452325739, 1596547110801, 1803081319565, 2030394662284, 2282788169349, 2564474332470, 2879729296683, 3233064954636],
  [1231157933624, 1408722428146, 1598995460716, 1805760222899, 2033358126448, 2286088678879, 2568164080775, 2883862385034, 3237699375604],
  [1233271709322, 1410975111383, 1601425464689, 1808419482464, 2036300175872, 2289365540711, 2571827514165, 2887966067212, 3242300863803],
  [1235369204432, 1413210659421, 1603837419312, 1811059411286, 2039221147731, 2292619124315, 2575465041994, 2892040799597, 3246869929736],
  [1237450680046, 1415429349265, 1606231613886, 1813680314770, 2042121371068, 2295849790321, 2579077063858, 2896087027716, 3251407071776],
  [1239516390985, 1417631451169, 1608608330671, 1816282490951, 2045001167066, 2299057890798, 2582663969910, 2900105186588, 3255912776556],
  [1241566585996, 1419817228865, 1610967845105, 1818866230732, 2047860849292, 2302243769527, 2586226141152, 2904095701055, 3260387519340],
  [1243601507946, 1421986939763, 1613310426028, 1821431818111, 2050700723944, 2305407762265, 2589763949733, 2908058986106, 3264831764378],
  [1245621394006, 1424140835159, 1615636335895, 1823979530398, 2053521090084, 2308550196993, 2593277759216, 2911995447176, 3269245965250],
  [1247626475828, 1426279160423, 1617945830973, 1826509638431, 2056322239854, 2311671394162, 2596767924848, 2915905480451, 3273630565194],
  [1249616979718, 1428402155186, 1620239161539, 1829022406776, 2059104458700, 2314771666919, 2600234793816, 2919789473141, 3277985997422],
  [1251593126796, 1430510053517, 1622516572065, 1831518093919, 2061868025572, 2317851321337, 2603678705489, 2923647803762, 3282312685426],
  [1253555133157, 1432603084097, 1624778301400, 1833996952457, 2064613213121, 2320910656623, 2607099991659, 2927480842390, 3286611043271]]

def glDDn : List (List Nat) := [
  [49483778510370, 329907802369749, 2707498374651037, 29389527029914046, 467370224399135583, 12373768087517307589, 636222474798252009513, 76585352917596481470097, 27168226950072853908102523],
  [51563170091396, 345198467829459, 2848421982752204, 31150029427986422, 500379968385457803, 13424576788836323957, 702163607121843955331, 86387043838403826448513, 31504251154426790432752728],
  [53700030454527, 360981797645189, 2994745371665453, 32992585145881401, 535292446225818531, 14551105871338130054, 774087588465400131526, 97314489510953849611997, 36473686279694202112634004],
  [55895220965840, 377267533421017, 3146610530028855, 34920056800884179, 572195225228820974, 15757926663043869829, 852466083108352437623, 109483220261868397352973, 42161015755758238461683689],
  [58149607633368, 394065517929099, 3304161837110617, 36935379055936064, 611179023026618694, 17049838862253819848, 937802831094686482255, 123019315617084997854873, 48660986610757428520980807],
  [60464061142473, 411385695812368, 3467546088699284, 39041559905556403, 652337794793068580, 18431879878373309853, 1030635517380108808333, 138060257968003708542952, 56079742565651937057779222],
  [62839456887695, 429238114320595, 3636912523386454, 41241681975438710, 695768822329819779, 19909334485535308724, 1131537734013114348221, 154755847245004947499274, 64536070561836649082407312],
  [65276675009035, 447632923979051, 3812412849046641, 43538903841022560, 741572804989515482, 21487744792173799301, 1241121038965919739924, 173269180433346738107088, 74162771011206252067801802],
  [67776600421846, 466580379334868, 3994201269155626, 45936461360390354, 789853952534030759, 23172920540678552225, 1360037115831400662001, 193777700003769657725136, 85108162872142951827841560],
  [70340122853683, 486090839637368, 4182434509691317, 48437669027291926, 840720079923297367, 24970949743205162127, 1488980038519282894163, 216474315485954646047886, 97537735582953423715338781],
  [72968136872509, 506174769559422, 4377271845967504, 51045921335120903, 894282704099130229, 26888209659862204992, 1628688645395076572266, 241568602741085326399144, 111635960845992915780672003],
  [75661541918421, 526842739909436, 4578875129863119, 53764694164096646, 950657142702563494, 28931378136353700923, 1779949027225598739837, 269288085675623105365026, 127608278312122071112831328],
  [78421242336373, 548105428318318, 4787408816852986, 56597546183083261, 1009962614906681843, 31107445300330642331, 1943597133649242172381, 299879605360529927923882, 145683270278066737976954708],
  [81248147408680, 569973619956683, 5003039993756557, 59548120269083963, 1072322344282795612, 33423725635377403929, 2120521503076784481466, 333610781900814836164631, 166115041784723459932585419],
  [84143171381186, 592458208247894, 5225938406134885, 62620144943587867, 1137863663748184495, 35887870433778745260, 2311666120955611235108, 370771574570176480028743, 189185823740733050370356353],
  [87107233493978, 615570195551903, 5456276486398466, 65817435827333530, 1206718122645406102, 38507880647588611214, 2518033411419588836218, 411675946059472312578061, 215208818036892177096515928],
  [90141258013724, 639320693906420, 5694229381594674, 69143897113129419, 1279021596071453328, 41292120135549613536, 2740687368025878528305, 456663637026443550959797, 244531305179346816812340297],
  [93246174261483, 663720925707225, 5939974981631235, 72603523056126757, 1354914396275036985, 44249329333675239054, 2980756828632348574841, 506102057451920739308135, 277538036468729073864677946],
  [96422916639777, 688782224417620, 6193693947992591, 76200399483551776, 1434541386371219433, 47388639337056821540, 3239438900502311295374, 560388301487974800756735, 314654934404494516026963140],
  [99672424663648, 714516035291895, 6455569741876331, 79938705322341753, 1518052096332979297, 50719586430510085781, 3518002541369650685296, 619951293169469398432250, 356353126973245904898594649],
  [102995642987464, 740933916079786, 6725788653503822, 83822714140974963, 1605600841259361472, 54252127052909589385, 3817792302740159299966, 685254070426920703144665, 403153343092873232742697161],
  [106393521433103, 768047537727615, 7004539830648511, 87856795719605738, 1697346841944331643, 57996653226694257264, 4140232241405581683958, 756796215218200379103719, 455630698927252959371626691],
  [109867015017582, 795868685093208, 7292015308084981, 92045417629162509, 1793454347963178890, 61964008455653414211, 4486830005827513222755, 835116438427063942311214, 514419906595409985298730107],
  [113417083983392, 824409257653172, 7588410036960525, 96393146838205226, 1894092762952765094, 66165504096044307451, 4859181104705580667000, 920795327856316233976777, 580220939438324616656017818],
  [117044693817732, 853681270248851, 7893921914327659, 100904651327038570, 1999436772647223808, 70612936229421950957, 5258973363433036014563, 1014458268896024155552574, 653805190366514445970196379],
  [120750815288678, 883696853737865, 8208751813013164, 105584701737892094, 2109666474978824648, 75318603034768617863, 5687991576897991604157, 1116778547316792682576810, 736022162469232410329306464],
  [124536424466956, 914468255791110, 8533103611570962, 110438173029256635, 2224967513265947783, 80295322678610456200, 6148122365502245541450, 1228480644288154882311096, 827806734064273478433041666],
  [128402502750412, 946007841527423, 8867184224237679, 115470046157094629, 2345531211300867761, 85556451738916090659, 6641359241743589107324, 1350343734449557028648596, 930187043109988388181648643],
  [132350036898605, 978328094291876, 9211203631860645, 120685409777342716, 2471554711700886179, 91115904163983759430, 7169807895774891329777, 1483205397974477394873484, 1044293039476483410097922199],
  [136380019045480, 1011441616347264, 9565374912023644, 126089461965338047, 2603241116388254946, 96988170796030674069, 7735691708272620099404, 1627965558453894511307497, 1171365756910445406016343722],
  [140493446739183, 1045361129601132, 9929914270117865, 131687511953580614, 2740799630124994963, 103188339458226990148, 8341357498620416041637, 1785590658906696874163845, 1312767359774121591266903341],
  [144691322959877, 1080099476339627, 10305041070264110, 137484981897741446, 2884445706492993926, 109732115628083546280, 8989281516245890846515, 1957118088703400206310505, 1469992024584013989501826974],
  [148974656143319, 1115669619946172, 10690977866515857, 143487408656237136, 3034401196711506560, 116635843713801597116, 9682075686851836869894, 2143660874780944752186618, 1644677719072497691915777874],
  [153344460210933, 1152084645606843, 11087950434398408, 149700445589283136, 3190894501505205616, 123916528928734689032, 10422494119941948688657, 2346412651849620363725867, 1838618947453621083210891544],
  [157801754596706, 1189357761092525, 11496187802448739, 156129864388376768, 3354160725444111186, 131591859806762457493, 11213439887566325246676, 2566652925402225759380097, 2053780534093365363461072365],
  [162347564266334, 1227502297400141, 11915922284236146, 162781556916606953, 3524441834376439723, 139680231352876075259, 12057972087471414556046, 2805752644089351491483410, 2292312523340210876159512885],
  [166982919740489, 1266531709578425, 12347389510284683, 169661537076230149, 3701986815793981241, 148200768846453894380, 12959313194455311419541, 3065180097223251992177986, 2556566278764565303312866922],
  [171708857129444, 1306459577427087, 12790828460282297, 176775942695842551, 3887051842268945550, 157173352329707312623, 13920856717981927955304, 3346507154068133759822916, 2849111869932942758954421628],
  [176526418146031, 1347299606201386, 13246481495946264, 184131037441583232, 4079900437444132722, 166618641773848187475, 14946175171154262536249, 3651415863704055592189873, 3172756841991435279044257608],
  [181436650142821, 1389065627395546, 13714594393488989, 191733212743291562, 4280803645934684253, 176558102944743692670, 16039028363341305688989, 3981705433165143118592424, 3530566468473591804788343673],
  [186440606120462, 1431771599460344, 14195416376289723, 199588989753115849, 4490040205375050485, 187014034006341320869, 17203372030788143646185, 4339299603689884084993152, 3925885595776952959233648624],
  [191539344763693, 1475431608518746, 14689200148969456, 207705021318706932, 4707896722353759003, 198009592855969704658, 18443366814471667182433, 4726254445827527267804222, 4362362193504480834101152650],
  [196733930465456, 1520059869163502, 15196201929638010, 216088093984644019, 4934667851164231651, 209568825196523101232, 19763387596377595108267, 5144766593989751829296382, 4843972734354106012610535264],
  [202025433340787, 1565670725200467, 15716681484068442, 224745130007638631, 5170656476132890332, 221716693409039337471, 21168033210750467443194, 5597181944245282303649721, 5375049533366448231910189673],
  [207414929259069, 1612278650339966, 16250902159940938, 233683189400897801, 5416173896560193202, 234479106191818814881, 22662136538952739444013, 6086004836086430985564508, 5960310186114411377043276513],
  [212903499871599, 1659898248961417, 16799130919787176, 242909472005788662, 5671540016115292644, 247882949034408820565, 24250775004952597404775, 6613907745969814096763205, 6604889254651937158623375714],
  [218492232618623, 1708544256966837, 17361638376182003, 252431319581368970, 5937083534523566304, 261956115481041467935, 25939281482396868903229, 7183741514994555541127548, 7314372358705851257003091939],
  [224182220768467, 1758231542342473, 17938698826512679, 262256217906409983, 6213142143170899565, 276727539272444683774, 27733255628547059828197, 7798546139110003914664373, 8094832840889558011035361549],
  [229974563440377, 1808975106124112, 18530590286210663, 272391798931564478, 6500062724378803941, 292227227339410135435, 29638575662141481488667, 8461562150286005430951331, 8952871184601925851781397557],
  [235870365616415, 1860790082988256, 19137594525136750, 282845842939987339, 6798201554061748720, 308486293685584895155, 31661410593158134594455, 9176242614634200686490325, 9895657376556343393733986138],
  [241870738171615, 1913691742170903, 19759997102619703, 293626280720162037, 7107924507450138543, 325536994160831259494, 33808232928534340503363, 9946265782620782494451483, 10930976413812015483593002251],
  [247976797901269, 1967695488035279, 20398087401826283, 304741195777543036, 7429607269726281184, 343412762183701548802, 36085831866347456001932, 10775548417696788241586079, 12067277174336477365079544786],
  [254189667537005, 2022816861021146, 21052158666801844, 316198826581918506, 7763635548671990724, 362148245381500647481, 38501326989635251816384, 11668259841898869677715452, 13313724878647840641610445901],
  [260510475774633, 2079071538340871, 21722508037325525, 328007568810165326, 8110405292628248856, 381779343212812586550, 41062182487906533800865, 12628836727593058084372126, 14680257386203077829057003699],
  [266940357289762, 2136475334710493, 22409436585647421, 340175977642487265, 8470322911417776407, 402343245583379106336, 43776221912003386958838, 13661998676416517053786077, 16177645584206759317439439634],
  [273480452771739, 2195044203213720, 23113249351791714, 352712770059701138, 8843805500674385402, 423878472474107824323, 46651643491288289786655, 14772764619853599844802285, 17817558148456696090828350779],
  [280131908935874, 2254794235930743, 23834255382320890, 365626827186716508, 9231281071855345272, 446424914549083804095, 49697036018259501670436, 15966470080385502903923622, 19612630963085349133098199932],
  [286895878551206, 2315741664965504, 24572767764045025, 378927196638745031, 9633188783673314008, 470023874913525469949, 52921395333437081931630, 17248785337494754997644248, 21576541510146987953556930881],
  [293773520468300, 2377902862906460, 25329103664530989, 392623094920208463, 10049979180136659330, 494718111865293467173, 56334141424830310927510, 18625734537718646391240036, 23724088562020225704240752236],
  [300765999631723, 2441294343916058, 26103584366434148, 406723909836623997, 10482114430322914340, 520551882781538889124, 59945136151184090133359, 20103715794375060864726635, 26071277522149917364167761439],
  [307874487108476, 2505932764262766, 26896535306377542, 421239202924583587, 10930068574079728371, 547570989148121491496, 63764701636529871950605, 21689522325920257729055658, 28635411784938196954779622978],
  [315100160108511, 2571834923318230, 27708286113561436, 436178711901193358, 11394327771371057979, 575822822693060163887, 67803639321117837363015, 23390364674316722964203339, 31435190510044591004849792485],
  [322444202005743, 2639017764207360, 28539170645980194, 451552353184658786, 11875390554523680715, 605356412761928382768, 72073249723203637526630, 25213894065693053406015164, 34490813224830833602394343987],
  [329907802369749, 2707498374651037, 29389527029914046, 467370224399135583, 12373768087517307589, 636222474798252009513, 76585352917596481470097, 27168226950072853908102523, 37824091698182137919632126555],
  [337492156973774, 2777293987725637, 30259697697810220, 483642606902946547, 12889984427068826549, 668473460170654336973, 81352309751576038011674, 29261970792376247132905355, 41458569555276770528789008084],
  [345198467829459, 2848421982752204, 31150029427986422, 500379968385457803, 13424576788836323957, 702163607121843955331, 86387043838403826448513, 31504251154426790432752728, 45419650127017315963411823169]]

def ghDDn : List (List Nat) := [
  [49483778510921, 329907802373543, 2707498374683720, 29389527030290451, 467370224405542218, 12373768087700227356, 636222474808462534228, 76585352918938587099620, 27168226950595331744127023],
  [51563170091970, 345198467833433, 2848421982786631, 31150029428385954, 500379968392328154, 13424576789035134428, 702163607133134599193, 86387043839920820932218, 31504251155033967465796270],
  [53700030455125, 360981797649348, 2994745371701692, 32992585146305173, 535292446233180109, 14551105871554005870, 774087588477871096432, 97314489512666207446046, 36473686280398654732756911],
  [55895220966463, 377267533425368, 3146610530066978, 34920056801333343, 572195225236702598, 15757926663278058601, 852466083122112017738, 109483220263798737286716, 42161015756574249265927977],
  [58149607634017, 394065517933649, 3304161837150697, 36935379056411816, 611179023035050541, 17049838862507645914, 937802831109851628833, 123019315619258282929753, 48660986611701197301304392],
  [60464061143148, 411385695817122, 3467546088741395, 39041559906059980, 652337794802082236, 18431879878648178203, 1030635517396805728376, 138060257970447462688646, 56079742566741815515180020],
  [62839456888397, 429238114325560, 3636912523430673, 41241681975971392, 695768822339448291, 19909334485832709086, 1131537734031479138723, 154755847247749489898614, 64536070563093401688323861],
  [65276675009765, 447632923984233, 3812412849093048, 43538903841585673, 741572804999793410, 21487744792495310398, 1241121038986099059486, 173269180436425436619395, 74162771012653345717874582],
  [67776600422603, 466580379340274, 3994201269204302, 45936461360985269, 789853952544994233, 23172920541025846209, 1360037115853552441725, 193777700007219202740501, 85108162873806877175281798],
  [70340122854470, 486090839643005, 4182434509742344, 48437669027920062, 840720079934984141, 24970949743580009192, 1488980038543577089771, 216474315489815346231365, 97537735584864051333912486],
  [72968136873326, 506174769565298, 4377271846020968, 51045921335783726, 894282704111579741, 26888209660266478179, 1628688645421695959503, 241568602745401427876804, 111635960848183890591534485],
  [75661541919268, 526842739915557, 4578875129919108, 53764694164795673, 950657142715816924, 28931378136789381122, 1779949027254739755294, 269288085680443136000818, 127608278314631248817229571],
  [78421242337251, 548105428324692, 4787408816911590, 56597546183820059, 1009962614920782174, 31107445300799823473, 1943597133681115801962, 299879605365907068438146, 145683270280936667568503258],
  [81248147409591, 569973619963317, 5003039993817866, 59548120269860151, 1072322344297787696, 33423725635882298401, 2120521503111617198824, 333610781906807319954491, 166115041788001916722882681],
  [84143171382130, 592458208254795, 5225938406198995, 62620144944405117, 1137863663764115113, 35887870434321689523, 2311666120993645992459, 370771574576848023664030, 189185823744473624349628635],
  [87107233494956, 615570195559080, 5456276486465473, 65817435828193570, 1206718122662324033, 38507880648172071647, 2518033411461086110058, 411675946066892579066686, 215208818041154921869111738],
  [90141258014736, 639320693913880, 5694229381664677, 69143897114034031, 1279021596089409418, 41292120136176192509, 2740687368071117422644, 456663637034688648003812, 244531305184198964799966427],
  [93246174262531, 663720925714976, 5939974981704337, 72603523057077781, 1354914396294084214, 44249329334347681237, 2980756828681627984687, 506102057461073754905792, 277538036474245823957327187],
  [96422916640861, 688782224425670, 6193693948068894, 76200399484551110, 1434541386391412990, 47388639337778020457, 3239438900555951133306, 560388301498126378644123, 314654934410759900385913343],
  [99672424664769, 714516035300253, 6455569741955942, 79938705323391356, 1518052096354376652, 50719586431283090610, 3518002541427993174069, 619951293180718356009978, 356353126980353742184613118],
  [102995642988623, 740933916088461, 6725788653586849, 83822714142076856, 1605600841282022451, 54252127053737612025, 3817792302803570334239, 685254070439374694689160, 403153343100928175648660065],
  [106393521434300, 768047537736615, 7004539830735067, 87856795720762004, 1697346841968318508, 57996653227580679666, 4140232241474452264331, 756796215231976607224891, 455630698936371644999291378],
  [109867015018819, 795868685102541, 7292015308175180, 92045417630375294, 1793454347988556416, 61964008456601795987, 4486830005902260965431, 835116438442289920796837, 514419906605722297622035297],
  [113417083984670, 824409257662847, 7588410037054483, 96393146839476744, 1894092762979600654, 66165504097058393762, 4859181104786651392546, 920795327873130605337802, 580220939449975071075258423],
  [117044693819052, 853681270258878, 7893921914425495, 100904651328371102, 1999436772675587454, 70612936230505680705, 5258973363520905419341, 1014458268914577566781819, 653805190379663706777598356],
  [120750815290040, 883696853748252, 8208751813115001, 105584701739287988, 2109666475008789198, 75318603035926132178, 5687991576993167018174, 1116778547337248722830560, 736022162484058952783462775],
  [124536424468361, 914468255801868, 8533103611676925, 110438173030718313, 2224967513297588909, 80295322679846107242, 6148122365605267776491, 1228480644310691086433632, 827806734080975408084871685],
  [128402502751862, 946007841538560, 8867184224347896, 115470046158624582, 2345531211334264082, 85556451740234450739, 6641359241855034399408, 1350343734474365950685003, 930187043128785431103411146],
  [132350036900100, 978328094303403, 9211203631975248, 120685409778943510, 2471554711736119348, 91115904165389630468, 7169807895895373380103, 1483205398001767755944998, 1044293039497619088756979154],
  [136380019047022, 1011441616359190, 9565374912142764, 126089461967012324, 2603241116425409752, 96988170797529097387, 7735691708402792218153, 1627965558483892426470533, 1171365756934189416702731627],
  [140493446740772, 1045361129613468, 9929914270241640, 131687511955331091, 2740799630164159422, 103188339459823256621, 8341357498760973399128, 1785590658939647163131277, 1312767359800772400227146227],
  [144691322961515, 1080099476352383, 10305041070392681, 137484981899570921, 2884445706534259387, 109732115629783206843, 8989281516397572836380, 1957118088739567793181752, 1469992024613901666286501167],
  [148974656145006, 1115669619959357, 10690977866649365, 143487408658148487, 3034401196754967803, 116635843715610473653, 9682075687015429589165, 2143660874820616159613836, 1644677719105986999869887133],
  [153344460212671, 1152084645620469, 11087950434536999, 149700445591279321, 3190894501550960958, 123916528930658885640, 10422494120118287539789, 2346412651893105307250832, 1838618947491114848592029962],
  [157801754598494, 1189357761106602, 11496187802592563, 156129864390460832, 3354160725492262589, 131591859808808372148, 11213439887756297666715, 2566652925449858847968775, 2053780534135308146311595064],
  [162347564268175, 1227502297414681, 11915922284385355, 162781556918782027, 3524441834427092904, 139680231355050411884, 12057972087675962878421, 2805752644141494040631229, 2292312523387092967828472734],
  [166982919742384, 1266531709593437, 12347389510439432, 169661537078499450, 3701986815847245784, 148200768848763675342, 12959313194675435874037, 3065180097280293956291788, 2556566278816927077421340146],
  [171708857131394, 1306459577442584, 12790828460442744, 176775942698209386, 3887051842324935024, 157173352332159891648, 13920856718218689812114, 3346507154130495790937425, 2849111869991379404612585389],
  [176526418148036, 1347299606217379, 13246481496112572, 184131037444051000, 4079900437502964794, 166618641776451263020, 14946175171408787400123, 3651415863772191232470673, 3172756842056601947308667367],
  [181436650144883, 1389065627412047, 13714594393661325, 191733212745863755, 4280803645996480815, 176558102947505321743, 16039028363614786949731, 3981705433239541134453362, 3530566468546209201653282227],
  [186440606122582, 1431771599477365, 14195416376468254, 199588989755796055, 4490040205439937775, 187014034009269933324, 17203372031081846092042, 4339299603771070951074639, 3925885595857813420942817793],
  [191539344765872, 1475431608536298, 14689200149154355, 207705021321498837, 4707896722421867730, 198009592859074117971, 18443366814786930783081, 4726254445916069809497122, 4362362193594454923199945641],
  [196733930467696, 1520059869181598, 15196201929829453, 216088093987551406, 4934667851235697130, 209568825199812535776, 19763387596715838974364, 5144766594086260032933889, 4843972734454149676014468871],
  [202025433343088, 1565670725219119, 15716681484266609, 224745130010665388, 5170656476207852613, 221716693412523432301, 21168033211113193969751, 5597181944350412303990950, 5375049533477610565274101532],
  [207414929261432, 1612278650359187, 16250902160146012, 233683189404047919, 5416173896638797206, 234479106195507644045, 22662136539341538645039, 6086004836200888240639112, 5960310186237843042957070836],
  [212903499874026, 1659898248981219, 16799130919999344, 242909472009066236, 5671540016197688305, 247882949038312909959, 24250775005369151446980, 6613907746094356760729365, 6604889254788899509625108338],
  [218492232621115, 1708544256987233, 17361638376401455, 252431319584778204, 5937083534609908710, 261956115485171812706, 25939281482842956846787, 7183741515129998046278120, 7314372358857726218080139341],
  [224182220771026, 1758231542363477, 17938698826739611, 262256217909955192, 6213142143261349101, 276727539276812766306, 27733255629024562582881, 7798546139257220774316234, 8094832841057858780237760846],
  [229974563443003, 1808975106145737, 18530590286445273, 272391798935250089, 6500062724473526442, 292227227344027943908, 29638575662652386993994, 8461562150445935275557431, 8952871184788308481772406420],
  [235870365619109, 1860790083010516, 19137594525379241, 282845842943817894, 6798201554160915624, 308486293690464942723, 31661410593704543232663, 9176242614807850545874708, 9895657376762619321627104208],
  [241870738174380, 1913691742193811, 19759997102870280, 293626280724142193, 7107924507553927042, 325536994165986604069, 33808232929118470754506, 9946265782809232339807040, 10930976414040165081163946806],
  [247976797904105, 1967695488058849, 20398087402085157, 304741195781677573, 7429607269834874387, 343412762189145813483, 36085831866971650350625, 10775548417901195801448858, 12067277174588664586637783664],
  [254189667539913, 2022816861045392, 21052158667069230, 316198826586212324, 7763635548785577822, 362148245387248041638, 38501326990301982919978, 11668259842120475542941666, 13313724878926428852249646663],
  [260510475777615, 2079071538365808, 21722508037601641, 328007568814623448, 8110405292747025284, 381779343218877927572, 41062182488618410929357, 12628836727833191117779973, 14680257386510646901843560080],
  [266940357292819, 2136475334736136, 22409436585932491, 340175977647114843, 8470322911541944016, 402343245589777842081, 43776221912763162716983, 13661998676676600120992855, 16177645584546124094305830770],
  [273480452774873, 2195044203240082, 23113249352085965, 352712770064503451, 8843805500804152637, 423878472480856056269, 46651643492098867129273, 14772764620135155883532515, 17817558148830926308689988477],
  [280131908939085, 2254794235957841, 23834255382624553, 365626827191698968, 9231281071990927345, 446424914556198311221, 49697036019123941222067, 15966470080690161349899850, 19612630963497790923705911057],
  [286895878554496, 2315741664993352, 24572767764358336, 378927196643913185, 9633188783814933083, 470023874921023733364, 52921395334358609622309, 17248785337824258586115919, 21576541510601287033199410160],
  [293773520471671, 2377902862935073, 25329103664854187, 392623094925567993, 10049979180284544708, 494718111873193695512, 56334141425812325956721, 18625734538074858354055863, 23724088562520352377590792344],
  [300765999635176, 2441294343945453, 26103584366767480, 406723909842180726, 10482114430477302650, 520551882789860044735, 59945136152230173274471, 20103715794759972543834782, 26071277522700193475133964327],
  [307874487112012, 2505932764292959, 26896535306721256, 421239202930343480, 10930068574240863764, 547570989156883317428, 63764701637643794208944, 21689522326335996628364800, 28635411785543324926466756631],
  [315100160112132, 2571834923349237, 27708286113915787, 436178711907162524, 11394327771539192326, 575822822702283211718, 67803639322303569000551, 23390364674765561262644183, 31435190510709685120645265296],
  [322444202009450, 2639017764239197, 28539170646345439, 451552353190843482, 11875390554699073809, 605356412771634041277, 72073249724465357467249, 25213894066177416955959870, 34490813225561453690676009778],
  [329907802373543, 2707498374683720, 29389527030290451, 467370224405542218, 12373768087700227356, 636222474808462534228, 76585352918938587099620, 27168226950595331744127023, 37824091698984325615889986514],
  [337492156977657, 2777293987759183, 30259697698198051, 483642606909581681, 12889984427259549255, 668473460181392880618, 81352309753003155387162, 29261970792939601517401928, 41458569556157088301026822291],
  [345198467833433, 2848421982786631, 31150029428385954, 500379968392328154, 13424576789035134428, 702163607133134599193, 86387043839920820932218, 31504251155033967465796270, 45419650127982889099523138482]]

def yDDp : List (List Nat) := [
  [1101312676873, 1265447338562, 1439789527996, 1627573186271, 1833444994563, 2061679160581, 2316243640853, 2601068622290, 2920259627693],
  [1104914219224, 1269291139540, 1443889006991, 1632032756728, 1838366847094, 2067155810755, 2322363860331, 2607923068436, 2927944900907],
  [1108467284008, 1273080154875, 1447931736704, 1636432378258, 1843223724446, 2072560870933, 2328404485581, 2614688603526, 2935530617018],
  [1111973070967, 1276816006616, 1451919399760, 1640773791236, 1848017483142, 2077896367845, 2334367758865, 2621367725947, 2943019569967],
  [1115432743166, 1280500246501, 1455853603637, 1645058659355, 1852749899031, 2083164240903, 2340255826306, 2627962827226, 2950414434346],
  [1118847427954, 1284134359870, 1459735885096, 1649288574119, 1857422671954, 2088366347220, 2346070743374, 2634476198117, 2957717772189],
  [1122218217947, 1287719769313, 1463567714288, 1653465059008, 1862037430079, 2093504466262, 2351814479998, 2640910034269, 2964932039289],
  [1125546172020, 1291257838077, 1467350498571, 1657589573340, 1866595733928, 2098580304175, 2357488925304, 2647266441488, 2972059591071],
  [1128832316308, 1294749873260, 1471085586051, 1661663515872, 1871099080123, 2103595497816, 2363095892044, 2653547440636, 2979102688066],
  [1132077645196, 1298197128790, 1474774268883, 1665688228139, 1875548904872, 2108551618502, 2368637120708, 2659754972209, 2986063501006],
  [1135283122313, 1301600808218, 1478417786343, 1669664997574, 1879946587222, 2113450175515, 2374114283371, 2665890900596, 2992944115590],
  [1138449681501, 1304962067335, 1482017327690, 1673595060409, 1884293452093, 2118292619366, 2379528987278, 2671957018065, 2999746536924],
  [1141578227787, 1308282016623, 1485574034842, 1677479604390, 1888590773109, 2123080344852, 2384882778205, 2677955048484, 3006472693679],
  [1144669638316, 1311561723559, 1489089004866, 1681319771307, 1892839775253, 2127814693907, 2390177143588, 2683886650809, 3013124441983],
  [1147724763287, 1314802214771, 1492563292320, 1685116659367, 1897041637339, 2132496958285, 2395413515472, 2689753422346, 3019703569060],
  [1150744426846, 1318004478070, 1495997911429, 1688871325405, 1901197494342, 2137128382056, 2400593273260, 2695556901811, 3026211796651],
  [1153729427974, 1321169464353, 1499393838133, 1692584786968, 1905308439565, 2141710163966, 2405717746298, 2701298572198, 3032650784216],
  [1156680541343, 1324298089401, 1502752012006, 1696258024257, 1909375526691, 2146243459633, 2410788216305, 2706979863480, 3039022131941],
  [1159598518143, 1327391235564, 1506073338050, 1699891981957, 1913399771693, 2150729383628, 2415805919647, 2712602155137, 3045327383573],
  [1162484086897, 1330449753350, 1509358688386, 1703487570955, 1917382154643, 2155169011417, 2420772049488, 2718166778540, 3051568029075],
  [1165337954242, 1333474462925, 1512608903839, 1707045669948, 1921323621399, 2159563381199, 2425687757801, 2723675019194, 3057745507132],
  [1168160805683, 1336466155525, 1515824795428, 1710567126966, 1925225085208, 2163913495629, 2430554157274, 2729128118848, 3063861207513],
  [1170953306333, 1339425594783, 1519007145774, 1714052760799, 1929087428203, 2168220323443, 2435372323098, 2734527277490, 3069916473287],
  [1173716101618, 1342353517995, 1522156710416, 1717503362340, 1932911502823, 2172484800998, 2440143294658, 2739873655222, 3075912602930],
  [1176449817960, 1345250637302, 1525274219060, 1720919695858, 1936698133147, 2176707833713, 2444868077127, 2745168374032, 3081850852298],
  [1179155063442, 1348117640813, 1528360376752, 1724302500189, 1940448116157, 2180890297440, 2449547642969, 2750412519472, 3087732436504],
  [1181832428444, 1350955193667, 1531415864986, 1727652489874, 1944162222928, 2185033039752, 2454182933370, 2755607142237, 3093558531681],
  [1184482486255, 1353763939041, 1534441342752, 1730970356218, 1947841199753, 2189136881166, 2458774859576, 2760753259666, 3099330276656],
  [1187105793671, 1356544499092, 1537437447522, 1734256768307, 1951485769211, 2193202616299, 2463324304173, 2765851857157, 3105048774536],
  [1189702891561, 1359297475867, 1540404796190, 1737512373955, 1955096631173, 2197231014963, 2467832122288, 2770903889508, 3110715094205],
  [1192274305417, 1362023452148, 1543343985950, 1740737800612, 1958674463757, 2201222823195, 2472299142738, 2775910282191, 3116330271745],
  [1194820545890, 1364722992267, 1546255595138, 1743933656219, 1962219924234, 2205178764248, 2476726169109, 2780871932554, 3121895311783],
  [1197342109291, 1367396642870, 1549140184022, 1747100530020, 1965733649880, 2209099539516, 2481113980784, 2785789710970, 3127411188770],
  [1199839478090, 1370044933645, 1551998295558, 1750238993325, 1969216258800, 2212985829422, 2485463333923, 2790664461918, 3132878848197],
  [1202313121383, 1372668378016, 1554830456099, 1753349600247, 1972668350688, 2216838294254, 2489774962387, 2795497005016, 3138299207741],
  [1204763495349, 1375267473799, 1557637176073, 1756432888390, 1976090507571, 2220657574967, 2494049578615, 2800288136004, 3143673158366],
  [1207191043689, 1377842703823, 1560418950624, 1759489379509, 1979483294501, 2224444293938, 2498287874468, 2805038627670, 3149001565363],
  [1209596198045, 1380394536530, 1563176260225, 1762519580133, 1982847260217, 2228199055687, 2502490522021, 2809749230742, 3154285269341],
  [1211979378404, 1382923426534, 1565909571253, 1765523982160, 1986182937779, 2231922447564, 2506658174322, 2814420674726, 3159525087169],
  [1214340993494, 1385429815162, 1568619336546, 1768503063423, 1989490845165, 2235615040404, 2510791466111, 2819053668715, 3164721812873],
  [1216681441153, 1387914130966, 1571305995922, 1771457288229, 1992771485843, 2239277389145, 2514891014513, 2823648902151, 3169876218497],
  [1219001108693, 1390376790209, 1573969976684, 1774387107868, 1996025349317, 2242910033426, 2518957419689, 2828207045558, 3174989054911],
  [1221300373246, 1392818197330, 1576611694087, 1777292961105, 1999252911645, 2246513498147, 2522991265459, 2832728751230, 3180061052597],
  [1223579602100, 1395238745388, 1579231551802, 1780175274645, 2002454635933, 2250088294011, 2526993119905, 2837214653906, 3185092922384],
  [1225839153021, 1397638816486, 1581829942337, 1783034463573, 2005630972806, 2253634918041, 2530963535933, 2841665371394, 3190085356160],
  [1228079374561, 1400018782171, 1584407247457, 1785870931783, 2008782360862, 2257153854067, 2534903051818, 2846081505181, 3195039027550],
  [1230300606357, 1402379003822, 1586963838571, 1788685072378, 2011909227102, 2260645573196, 2538812191727, 2850463641010, 3199954592557],
  [1232503179419, 1404719833017, 1589500077112, 1791477268058, 2015011987335, 2264110534263, 2542691466208, 2854812349432, 3204832690185],
  [1234687416404, 1407041611884, 1592016314889, 1794247891487, 2018091046581, 2267549184257, 2546541372671, 2859128186333, 3209673943029],
  [1236853631885, 1409344673438, 1594512894437, 1796997305648, 2021146799436, 2270961958732, 2550362395836, 2863411693445, 3214478957837],
  [1239002132606, 1411629341899, 1596990149335, 1799725864178, 2024179630439, 2274349282201, 2554155008170, 2867663398820, 3219248326052],
  [1241133217725, 1413895933004, 1599448404526, 1802433911691, 2027189914412, 2277711568507, 2557919670301, 2871883817303, 3223982624332],
  [1243247179060, 1416144754298, 1601887976612, 1805121784087, 2030178016791, 2281049221186, 2561656831417, 2876073450967, 3228682415044],
  [1245344301309, 1418376105415, 1604309174142, 1807789808845, 2033144293941, 2284362633812, 2565366929648, 2880232789544, 3233348246738],
  [1247424862276, 1420590278349, 1606712297883, 1810438305308, 2036089093455, 2287652190323, 2569050392426, 2884362310826, 3237980654603],
  [1249489133083, 1422787557712, 1609097641087, 1813067584955, 2039012754449, 2290918265340, 2572707636843, 2888462481063, 3242580160905],
  [1251537378372, 1424968220979, 1611465489736, 1815677951657, 2041915607833, 2294161224472, 2576339069980, 2892533755329, 3247147275404],
  [1253569856507, 1427132538729, 1613816122790, 1818269701929, 2044797976582, 2297381424602, 2579945089233, 2896576577886, 3251682495757],
  [1255586819759, 1429280774870, 1616149812412, 1820843125168, 2047660175990, 2300579214172, 2583526082620, 2900591382530, 3256186307902],
  [1257588514494, 1431413186856, 1618466824192, 1823398503880, 2050502513916, 2303754933445, 2587082429081, 2904578592917, 3260659186429],
  [1259575181346, 1433530025898, 1620767417358, 1825936113904, 2053325291014, 2306908914769, 2590614498759, 2908538622885, 3265101594937],
  [1261547055394, 1435631537167, 1623051844982, 1828456224620, 2056128800966, 2310041482818, 2594122653277, 2912471876758, 3269513986372],
  [1263504366317, 1437717959981, 1625320354174, 1830959099151, 2058913330697, 2313152954834, 2597607246000, 2916378749639, 3273896803359],
  [1265447338562, 1439789527996, 1627573186271, 1833444994563, 2061679160581, 2316243640853, 2601068622290, 2920259627693, 3278250478519],
  [1267376191494, 1441846469381, 1629810577014, 1835914162045, 2064426564644, 2319313843927, 2604507119744, 2924114888418, 3282575434765],
  [1269291139540, 1443889006991, 1632032756728, 1838366847094, 2067155810755, 2322363860331, 2607923068436, 2927944900907, 3286872085604]]

def glDDp : List (List Nat) := [
  [61632103251676, 395914918132725, 3107166087088929, 32287445294141002, 496602498605773808, 12854014973868082751, 651434607450483234770, 77712797083103726702100, 27415002308944534060195643],
  [64157744395150, 413886973111890, 3265431709130071, 34191227914570950, 531344552949514322, 13939927017667901890, 718768264062522421605, 87644870081478042683514, 31787298823713529833938674],
  [66752405800845, 432419272972588, 3429602660137234, 36182297236590980, 568070840401562745, 15103704201019441860, 792195418452714032416, 98716162917586467402769, 36797872328369672306585736],
  [69417029937725, 451522301092790, 3599829835721467, 38263651381868844, 606871907806692868, 16350026043082456937, 872195311405207760039, 111043442519011524470264, 42531800626822636071036725],
  [72152563445426, 471206647423450, 3776266622338134, 40438362975099559, 647841535754906372, 17683804891750441052, 959279703598881715006, 124754125603453542749749, 49084491071485668465138059],
  [74959957232329, 491483009232840, 3959068923970194, 42709580461125460, 691076827555830579, 19110195415744600362, 1053994766922256402215, 139987139557366305982743, 56562820289363211815203082],
  [77840166569341, 512362191819935, 4148395188920104, 45080529437859242, 736678300124981829, 20634604409296925264, 1156923069803119538528, 156893844803756320865559, 65086387951536891032401020],
  [80794151176450, 533855109215468, 4344406436977252, 47554514002858920, 784749976770005397, 22262700920332346297, 1268685660007868913321, 175639022477001484116860, 74788894905803598207854507],
  [83822875308789, 555972784933653, 4547266286429218, 50134918123357777, 835399481916510646, 24000426711695487035, 1389944249588682310412, 196401931495300152795735, 85819656855330434975020362],
  [86927307830274, 578726352666810, 4757140981588059, 52825207016303530, 888738137776287203, 25854007060823921283, 1521403505600257336811, 219377439376671857097996, 98345265646624684804961883],
  [90108422293281, 602127057002776, 4974199420388033, 55628928551778285, 944881063054706882, 27829961912095479834, 1663813451487323978421, 244777231260431293117073, 112551411252416276697655395],
  [93367197001470, 626186254144847, 5198613182051323, 58549714668313692, 1003947273677398966, 29935117385106216953, 1817971983291304473776, 272831101982796774859862, 128644878512048205038153121],
  [96704615086658, 650915412614220, 5430556555273844, 61591282810931316, 1066059785541120065, 32176617654033401974, 1984727505826623756608, 303788336197864366110753, 146855733881700416594600824],
  [100121664560539, 676326113987435, 5670206565988927, 64757437382056538, 1131345719481950894, 34561937201163795474, 2164981692956000170302, 337919181905139513691690, 167439718612507940970375478],
  [103619338387191, 702430053582229, 5917743006271542, 68052071216036584, 1199936408191364063, 37098893465026352902, 2359692378039573988509, 375516422926721456047327, 190680866043791491973337517],
  [107198634529439, 729239041196696, 6173348462378370, 71479167063123196, 1271967505526540009, 39795659877227315571, 2569876578705501306882, 416897056255981813000988, 216894362150601056427050492],
  [110860556012226, 756765001791826, 6437208343681399, 75042799102854959, 1347579097734172614, 42660779317786269988, 2796613661989587561023, 462404080443690100213867, 246429669859316621517350467],
  [114606110974665, 785019976244307, 6709510911789470, 78747134464938238, 1426915817236250420, 45703177977938948658, 3041048655386259718285, 512408401629143997399131, 279673939294743683113861776],
  [118436312713406, 814016122038524, 6990447309369536, 82596434775696729, 1510126958379587753, 48932179663396283371, 3304395708979488176422, 567310863938666545678649, 317055727848592748798512064],
  [122352179739996, 843765713977356, 7280211589709169, 86595057723010812, 1597366595762811918, 52357520528447924649, 3587941715648942895671, 627544411594572266519417, 359049055612150841073087812],
  [126354735825278, 874281144921052, 7579000746167359, 90747458632466367, 1688793704602224070, 55989364269059500529, 3893050094202237172023, 693576390272465993294287, 406177823837991226237448299],
  [130445010038445, 905574926506639, 7887014741773866, 95058192074248647, 1784572283805944960, 59838317773110592509, 4221164743148811126867, 765910995651969484118692, 459020626058246658066050642],
  [134624036799725, 937659689812299, 8204456539608089, 99531913481913522, 1884871481167232222, 63915447245547891359, 4573814170536831585166, 845091877653834198108726, 518215983593383632601754446],
  [138892855917088, 970548186166946, 8531532132417973, 104173380788351499, 1989865721220085992, 68232294827265856744, 4952615807415278408729, 931704909005863737390042, 584468039882681936721522011],
  [143252512624047, 1004253287812883, 8868450573319260, 108987456090436152, 2099734835445148061, 72800895700862623965, 5359280511518283896265, 1026381127486100792303715, 658552750056926008875382133],
  [147704057625365, 1038787988633068, 9215424006216158, 113979107319683390, 2214664195104303469, 77633795717178771502, 5795617268287269329041, 1129799861615011517122832, 741324605429633232704727250],
  [152248547133020, 1074165404882164, 9572667696533414, 119153409952477217, 2334844846553916732, 82744069537241571593, 6263538097947746664486, 1242692049786655114957987, 833723934882049112218158352],
  [156887042898429, 1110398775962774, 9940400062366752, 124515548716489899, 2460473649157308816, 88145339316023924353, 6765063173968944493967, 1365843763809181347764809, 936784828638793965518942084],
  [161620612257754, 1147501465045448, 10318842705327950, 130070819342022863, 2591753415975366225, 93851793934631067969, 7302326163646986462588, 1500099947824524177082384, 1051643732951505581183032900],
  [166450328158386, 1185486959923602, 10708220442574117, 135824630309484620, 2728893056980633754, 99878208796405069899, 7877579796522764377109, 1646368384495457880694134, 1179548767565526203304892189],
  [171377269192545, 1224368873638062, 11108761337590912, 141782504636766365, 2872107725070374787, 106239966188042262609, 8493201671629394221229, 1805623900895378961615047, 1321869821773863408518518400],
  [176402519642698, 1264160945294405, 11520696732600318, 147950081679315218, 3021618964893017004, 112953076253491999411, 9151700309764428285534, 1978912826772797279559527, 1480109488623812148770896871],
  [181527169496837, 1304877040753894, 11944261280158164, 154333118954576702, 3177654864176268668, 120034198549306220169, 9855721461584748901461, 2167357719221809677843512, 1655914901101346214431929368],
  [186752314496017, 1346531153365931, 12379692976014588, 160937493973170668, 3340450208590662425, 127500664235592810725, 10608054681135935463410, 2372162367368343899275193, 1851090538578181942218912886],
  [192079056154404, 1389137404746882, 12827233191021064, 167769206118252363, 3510246638505971735, 135370498888008789569, 11411640172701700943505, 2594617092508041459813315, 2067612076078256899624021239],
  [197508501794079, 1432710045510304, 13287126704032940, 174834378522463636, 3687292809706407454, 143662445973870788664, 12269575921538385665596, 2836104359199140291659397, 2307641355061312631559130298],
  [203041764578050, 1477263455953294, 13759621734606712, 182139259980544171, 3871844556375725920, 152395990978132495607, 13185125121120891689528, 3098104713132118513315924, 2573542558425760878406350552],
  [208679963534922, 1522812146908705, 14244969976620890, 189690226874182702, 4064165057275231019, 161591386214761831531, 14161723903429101409367, 3382203063856989620523926, 2867899679007976277532429717],
  [214424223584404, 1569370760393742, 14743426630793236, 197493785124940015, 4264525005234825056, 171269676336571867271, 15202989386227017710164, 3690095329135881452676640, 3193535376477606735270438660],
  [220275675580154, 1616954070418931, 15255250439249339, 205556572169656809, 4473202779389233701, 181452724560803318289, 16312728046642935008665, 4023595460920878450669319, 3553531324093218553698076390],
  [226235456322944, 1665576983745038, 15780703718312389, 213885358959449139, 4690484620761398315, 192163239607600913726, 17494944435689252881822, 4384642871391895190777977, 3951250154060991694824218641],
  [232304708595145, 1715254540606662, 16320052393614416, 222487051969055037, 4916664811128740090, 203424803409777758722, 18753850241092159582750, 4775310280591618735595771, 4390359115586145513542505577],
  [238484581184081, 1766001915471931, 16873566032649478, 231368695249066533, 5152045854981935587, 215261899556237436204, 20093873713500569559924, 5197812005713236175621286, 4874855570811072243643494877],
  [244776228913015, 1817834417818739, 17441517881481167, 240537472490464851, 5396938664765945252, 227699942539300464873, 21519669471383405555679, 5654512717055288858721756, 5409094457482205977298347102],
  [251180812668398, 1870767492926325, 18024184897190287, 250000709100616705, 5651662749422691820, 240765307802680878009, 23036128690314355062076, 6147936680655087953862547, 5997817860302684362632433879],
  [257699499421237, 1924816722566709, 18621847784550958, 259765874332614901, 5916546406682433630, 254485362583010853008, 24648389697157375803869, 6680777515271707000163091, 6646186839048365219408043446],
  [264333462255235, 1979997825834221, 19234791029880570, 269840583407187811, 6191926918541163920, 268888497603075290636, 26361848981703263611621, 7255908487516391935528313, 7359815671283198782525660607],
  [271083880395478, 2036326659898981, 19863302937583869, 280232599678606357, 6478150749677185104, 284004159629076961980, 28182172634165004456047, 7876393372484875971282592, 8144808680829360753383388528],
  [277951939226814, 2093819220769521, 20507675664285972, 290949836811507921, 6775573750848345453, 299862884881099078486, 30115308233674042207408, 8545497907697574742463410, 9007799829889773163437532704],
  [284938830328092, 2152491644095729, 21168205256657382, 302000360998093244, 7084561363997379612, 316496333352212558371, 32167497191592355695489, 9266701870855512726532558, 9955995266260099864961834814],
  [292045751493731, 2212360205865483, 21845191685200310, 313392393182798566, 7405488832689039886, 333937324047207608362, 34345287574661483696313, 10043711808418724959289529, 10997219030317951976863374733],
  [299273906745804, 2273441323307270, 22538938882487987, 325134311321482220, 7738741415149474362, 352219871124613689146, 36655547417978977924811, 10880474452505117264998224, 12139962138012409502742706415],
  [306624506386533, 2335751555598998, 23249754778661733, 337234652665581381, 8084714601609624848, 371379221033385224551, 39105478547924929366111, 11781190853022350800691207, 13393435268765724019570133019],
  [314098766992564, 2399307604640241, 23977951338747949, 349702116058452728, 8443814335244555767, 391451890615020171585, 41702630930732891786575, 12750331265632153143041012, 14767625303656366181772065199],
  [321697911457515, 2464126315882480, 24723844598816705, 362545564276814470, 8816457236597841685, 412475706175519624532, 44454917559691072779248, 13792650826546114650735358, 16273355974159516020286699454],
  [329423169014632, 2530224679118535, 25487754704684688, 375774026394189925, 9203070832963766864, 434489843616049869163, 47370629912672112161773, 14913206057721136117327455, 17922352897479222790506196451],
  [337275775250137, 2597619829204393, 26270005947457808, 389396700146200631, 9604093790217298553, 457534869604894364739, 50458453978863092323305, 16117372234787240308765951, 19727313290234863935510708094],
  [345256972144270, 2666329046972608, 27070926803591913, 403422954354599337, 10019976150096914960, 481652783768447603258, 53727486892041027364968, 17410861666039541650368959, 21701980673703135552127950703],
  [353368008074505, 2736369759961235, 27890849970991475, 417862331359155108, 10451179570778038469, 506887062047031773676, 57187254177524665558929, 18799742921569647786984359, 23861224898844622954161930169],
  [361610137856514, 2807759543176334, 28730112408090837, 432724549467235946, 10898177571886828286, 533282701077250940975, 60847727642629544912167, 20290461055705475109458965, 26221127843624534145282222245],
  [369984622751565, 2880516119949256, 29589055371830900, 448019505465434051, 11361455782691733513, 560886263809863551738, 64719343919584572740301, 21889858874551067929267424, 28799075154181818820442192696],
  [378492730516366, 2954657362819851, 30468024457177384, 463757277117332128, 11841512196461198738, 589745926185933304913, 68813023696246057588912, 23605199292526757019381274, 31613854420745810137270137726],
  [387135735385323, 3030201294140812, 31367369635485832, 479948125699761185, 12338857427752966898, 619911525088794918320, 73140191645372686603408, 25444188830532672930949937, 34685760213345603008807789626],
  [395914918132725, 3107166087088929, 32287445294141002, 496602498605773808, 12854014973868082751, 651434607450483234770, 77712797083103726702100, 27415002308944534060195643, 38036706416031046789520819635],
  [404831566082355, 3185570066374303, 33228610274556071, 513731031894803259, 13387521481597902243, 684368480642395578170, 82543335366532792503260, 29526308789374219699068589, 41690346322706507446858198953],
  [413886973111890, 3265431709130071, 34191227914570950, 531344552949514322, 13939927017667901890, 718768264062522421605, 87644870081478042683514, 31787298823713529833938674, 45672201012816204187785727019]]

def ghDDp : List (List Nat) := [
  [61632103252364, 395914918137297, 3107166087126563, 32287445294555493, 496602498612591057, 12854014974058261536, 651434607460942753126, 77712797084465930905709, 27415002309471827466384297],
  [64157744395867, 413886973116673, 3265431709169669, 34191227915010509, 531344552956820314, 13939927017874515547, 718768264074085363036, 87644870083017504930242, 31787298824326241913187363],
  [66752405801591, 432419272977590, 3429602660178873, 36182297237056793, 568070840409386207, 15103704201243699239, 792195418465482495682, 98716162919323911884515, 36797872329080477629126696],
  [69417029938501, 451522301098018, 3599829835765225, 38263651382362139, 606871907815063883, 16350026043325641633, 872195311419292069478, 111043442520969843061551, 42531800627645927621392495],
  [72152563446234, 471206647428911, 3776266622384090, 40438362975621610, 647841535763856428, 17683804892013915249, 959279703614400993389, 124754125605657996996088, 49084491072437770009800401],
  [74959957233168, 491483009238541, 3959068924018431, 42709580461677583, 691076827565392621, 19110195416029808832, 1053994766939339177858, 139987139559844745789384, 56562820290462614137928400],
  [77840166570213, 512362191825884, 4148395188970706, 45080529438442799, 736678300135190316, 20634604409605399531, 1156923069821904388410, 156893844806539421107912, 65086387952804514471473058],
  [80794151177356, 533855109221672, 4344406437030306, 47554514003475321, 784749976780896353, 22262700920665708981, 1268685660028505144037, 175639022480123000471709, 74788894907263084154385207],
  [83822875309729, 555972784940121, 4547266286484811, 50134918124008480, 835399481928121715, 24000426712055456376, 1389944249611330678856, 196401931498797198175707, 85819656857008469235222135],
  [86927307831250, 578726352673548, 4757140981646282, 52825207016990042, 888738137788657710, 25854007061212315838, 1521403505625090812589, 219377439380585200160347, 98345265648551355992858470],
  [90108422294293, 602127057009793, 4974199420448981, 55628928552502163, 944881063067877892, 27829961912514223380, 1663813451514528550054, 244777231264805680409233, 112551411254625473110909269],
  [93367197002519, 626186254152150, 5198613182115090, 58549714669076546, 1003947273691413344, 29935117385557343581, 1817971983321080000850, 272831101987681278263222, 128644878514578053777891351],
  [96704615087745, 650915412621818, 5430556555340527, 61591282811734808, 1066059785556022539, 32176617654519061386, 1984727505859184870130, 303788336203312757346586, 146855733884593769024762841],
  [100121664561665, 676326113995336, 5670206566058628, 64757437382902386, 1131345719497788120, 34561937201686258493, 2164981692991577223592, 337919181911210667762944, 167439718615812908972959369],
  [103619338388357, 702430053590443, 5917743006344362, 68052071216926560, 1199936408208184692, 37098893465588017202, 2359692378078414061083, 375516422933479785604035, 190680866047562039845295230],
  [107198634530646, 729239041205230, 6173348462454416, 71479167064059130, 1271967505544394753, 39795659877830711627, 2569876578747869263858, 416897056263497735738734, 216894362154897653686406556],
  [110860556013475, 756765001800690, 6437208343760777, 75042799103838739, 1347579097753114318, 42660779318434067264, 2796613662035767170696, 462404080452040541541820, 246429669864206962339140186],
  [114606110975957, 785019976253510, 6709510911872291, 78747134465971812, 1426915817256334133, 45703177978633962032, 3041048655436554830635, 512408401638412930750165, 279673939300303478606517018],
  [118436312714741, 814016122048075, 6990447309455913, 82596434776782106, 1510126958400870802, 48932179664141479806, 3304395709034223965405, 567310863948945572973182, 317055727854906598860258326],
  [122352179741377, 843765713987263, 7280211589799217, 86595057724150064, 1597366595785353981, 52357520529246430124, 3587941715708467168298, 627544411605961241446059, 359049055619313193134621815],
  [126354735826705, 874281144931326, 7579000746261197, 90747458633661631, 1688793704626087256, 55989364269914607228, 3893050094266921747309, 693576390285073690226466, 406177823846107428811462524],
  [130445010039918, 905574926517289, 7887014741871614, 95058192075502125, 1784572283831193892, 59838317774025766287, 4221164743219053287886, 765910995665914315651090, 459020626067434117683276373],
  [134624036801247, 937659689823336, 8204456539709871, 99531913483227482, 1884871481193934111, 63915447246526779486, 4573814170613055607567, 845091877669244984373245, 518215983603773083420417017],
  [138892855918659, 970548186178379, 8531532132523916, 104173380789728279, 1989865721248310727, 68232294828312295937, 4952615807497937169202, 931704909022880530490829, 584468039894418832864887442],
  [143252512625668, 1004253287824722, 8868450573429494, 108987456091878159, 2099734835474968291, 72800895701980648719, 5359280511607860564572, 1026381127504875759404876, 658552750070172050366571704],
  [147704057627038, 1038787988645324, 9215424006330814, 113979107321193106, 2214664195135794695, 77633795718372622730, 5795617268384279147392, 1129799861635709885925668, 741324605444568036755408411],
  [152248547134745, 1074165404894848, 9572667696652628, 119153409954057194, 2334844846587157394, 82744069538515705583, 6263538098052738818170, 1242692049809456185513188, 833723934898872042569237694],
  [156887042900207, 1110398775975896, 9940400062490662, 124515548718142766, 2460473649192380388, 88145339317383022045, 6765063174082504077296, 1365843763834279574793213, 936784828657726133552465176],
  [161620612259587, 1147501465059018, 10318842705456697, 130070819343751326, 2591753416012353307, 93851793936080044580, 7302326163769736544385, 1500099947852130327207541, 1051643732972792033615629815],
  [166450328160275, 1185486959937632, 10708220442707846, 135824630311291463, 2728893057019624174, 99878208797949084881, 7877579796655368170114, 1646368384525800269238122, 1179548767589438312441846417],
  [171377269194491, 1224368873652564, 11108761337729770, 141782504638654451, 2872107725111459696, 106239966189686729976, 8493201671772557359993, 1805623900928704773869016, 1321869821800701482306350468],
  [176402519644702, 1264160945309389, 11520696732744456, 147950081681287495, 3021618964936290982, 112953076255242598424, 9151700309918901217501, 1978912826809373981706476, 1480109488653908279232646857],
  [181527169498900, 1304877040769373, 11944261280307736, 154333118956636199, 3177654864221829826, 120034198551168906407, 9855721461751329396150, 2167357719261926523004008, 1655914901135067384514200010],
  [186752314498141, 1346531153381915, 12379692976169752, 160937493975320502, 3340450208638612514, 127500664237573827543, 10608054681315471244798, 2372162367412313534433792, 1851090538615933412628288008],
  [192079056156589, 1389137404763384, 12827233191181980, 167769206120495737, 3510246638556416255, 135370498890114679955, 11411640172895092450870, 2594617092556201639706567, 2067612076120485898879828956],
  [197508501796328, 1432710045527336, 13287126704199771, 174834378524803844, 3687292809759455768, 143662445976108407513, 12269575921746588948288, 2836104359251855706032702, 2307641355108512374279388175],
  [203041764580363, 1477263455970869, 13759621734779627, 182139259982984595, 3871844556431491368, 152395990980509022417, 13185125121344921441372, 3098104713189782734290772, 2573542558478474938731263465],
  [208679963537300, 1522812146926835, 14244969976800059, 189690226876726822, 4064165057333831037, 161591386217284783542, 14161723903670034148562, 3382203063920027177196016, 2867899679066803346629373821],
  [214424223586849, 1569370760412439, 14743426630978834, 197493785127591402, 4264525005296381297, 171269676339249113044, 15202989386485995110782, 3690095329204750040421687, 3193535376543205794037789260],
  [220275675582667, 1616954070438209, 15255250439441545, 205556572172419134, 4473202779453872157, 181452724563643091761, 16312728046921167390070, 4023595460996071283052978, 3553531324166314494113601300],
  [226235456325526, 1665576983764909, 15780703718511383, 213885358962326171, 4690484620829249447, 192163239610611828731, 17494944435988022862592, 4384642871473943502358668, 3951250154142381425883691192],
  [232304708597798, 1715254540627141, 16320052393820384, 222487051972050648, 4916664811199938954, 203424803412968824009, 18753850241412825905862, 4775310280681094444362692, 4390359115676704590367314733],
  [238484581186806, 1766001915493030, 16873566032862610, 231368695252184696, 5152045855056621972, 215261899559618070955, 20093873713844571096231, 5197812005810754714237806, 4874855570911762061224374956],
  [244776228915813, 1817834417840473, 17441517881701654, 240537472493709646, 5396938664844263810, 227699942542880514743, 21519669471752265493026, 5654512717161512184269124, 5409094457594081573332817728],
  [251180812671271, 1870767492948707, 18024184897418328, 250000709103992319, 5651662749504792208, 240765307806470631692, 23036128690709685287534, 6147936680770727746211181, 5997817860426902877206090938],
  [257699499424186, 1924816722589753, 18621847784786752, 259765874336125632, 5916546406768470654, 254485362587021059363, 24648389697580881486936, 6680777515397528059679557, 6646186839186195062721409222],
  [264333462258261, 1979997825857941, 19234791030124323, 269840583410838069, 6191926918631297677, 268888497607317176363, 26361848982156747996519, 7255908487653215791336236, 7359815671436029565557680504],
  [271083880398583, 2036326659923393, 19863302937835789, 280232599682400667, 6478150749771581134, 284004159633562249885, 28182172634650373871404, 7876393372633584711876666, 8144808680998714040388233317],
  [277951939230000, 2093819220794639, 20507675664546272, 290949836815450924, 6775573750947174889, 299862884885840006335, 30115308234193311302115, 8545497907859115081068394, 9007799830077314109358904761],
  [284938830331359, 2152491644121569, 21168205256926279, 302000361002189699, 7084561364100819337, 316496333357221898362, 32167497192147652909602, 9266701871030900314246949, 9955995266467649805365143728],
  [292045751497081, 2212360205892058, 21845191685478025, 313392393187053356, 7405488832797272693, 333937324052498687213, 34345287575255056976356, 10043711808609048959637596, 10997219030547502042829952465],
  [299273906749239, 2273441323334597, 22538938882774746, 325134311325900351, 7738741415262689116, 352219871130200408844, 36655547418613200693064, 10880474452711545204302883, 12139962138266135338310768955],
  [306624506390055, 2335751555627092, 23249754778957765, 337234652670167985, 8084714601728016652, 371379221039282083751, 39105478548602306753836, 11781190853246133709269531, 13393435269046001684774330942],
  [314098766996173, 2399307604669119, 23977951339053488, 349702116063213065, 8443814335368326134, 391451890621242287700, 41702630931456067141480, 12750331265874631003080197, 14767625303965789330213380655],
  [321697911461213, 2464126315912157, 24723844599131990, 362545564281753934, 8816457236727198711, 412475706182082756513, 44454917560462834457741, 13792650826808722167382373, 16273355974500914446431886000],
  [329423169018421, 2530224679149027, 25487754705009962, 375774026399314042, 9203070833098925405, 434489843622970441005, 47370629913495400617155, 14913206058005408830447206, 17922352897855682448597015169],
  [337275775254018, 2597619829235718, 26270005947793318, 389396700151515064, 9604093790358480411, 457534869612189489721, 50458453979741007501109, 16117372235094821063531947, 19727313290649748539066223804],
  [345256972148245, 2666329047004782, 27070926803937911, 403422954360109888, 10019976150244349063, 481652783776135108941, 53727486892976836417322, 17410861666372187445872841, 21701980674160109870679764112],
  [353368008078575, 2736369759994274, 27890849971348219, 417862331364867722, 10451179570931961065, 506887062055130227675, 57187254178521810890011, 18799742921929237022899096, 23861224899347677931947789991],
  [361610137860681, 2807759543210257, 28730112408458588, 432724549473156711, 10898177572047483137, 533282701085779677536, 60847727643691652567408, 20290461056094015251722402, 26221127844178013975347735861],
  [369984622755831, 2880516119984080, 29589055372209924, 448019505471569203, 11361455782859372092, 560886263818842699127, 64719343920715461152173, 21889858874970703616857023, 28799075154790450116866736374],
  [378492730520732, 2954657362855593, 30468024457567952, 463757277123688054, 11841512196636080432, 589745926195383813649, 68813023697449746692849, 23605199292979778635207229, 31613854421414733358063812519],
  [387135735389791, 3030201294177490, 31367369635888221, 479948125706344426, 12338857427935359216, 619911525098738590269, 73140191646653407337627, 25444188831021525661024491, 34685760214080406292756688700],
  [395914918137297, 3107166087126563, 32287445294555493, 496602498612591057, 12854014974058261536, 651434607460942753126, 77712797084465930905709, 27415002309471827466384297, 38036706416837802381471367834],
  [404831566087032, 3185570066412910, 33228610274982950, 513731031901861372, 13387521481796151884, 684368480653394538342, 82543335367981163227254, 29526308789942737831896364, 41690346323591810897879038773],
  [413886973116673, 3265431709169669, 34191227915010509, 531344552956820314, 13939927017874515547, 718768264074085363036, 87644870083017504930242, 31787298824326241913187363, 45672201013787216530015968585]]

end TNS.Data
