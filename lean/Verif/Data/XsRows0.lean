/-
Generated by scripts/gen_xs.py: for the energies of the grid (energy in 1e-9 keV, rounded
down; exp(-energy / 6400 keV) in units of 2^-96; weights of the three reactions).
-/

set_option autoImplicit false
set_option maxRecDepth 100000

namespace TNS.Data

def xsRows0 : List (Nat × Nat × Nat) := [
  (1000000000, 79215784080949392074676253650, 6944686289222921471909609009615352684503848017206337528007765975099817576118748563191917371901034857963411315757404950384851346561907679),
  (1006938631, 79215698198324835917243506540, 15057981114735576935232493550350426187130336795403545172295414418358503853537796869174149672010287168318774310408252717281663117376559792),
  (1013925407, 79215611719881571465950022586, 16312841180410254273928414443173839844696092663707736852588891735971472364561926618871343476152049679364259628215690498376910704729497040),
  (1020960662, 79215524641487490068195391835, 17607082781731734737711771405289112161135322157230878681217478601025319706357851068591880609678524097302579261432818445742054844761573171),
  (1028044732, 79215436958985759993980830159, 18941712485967985075744788534855743200011242910784635074641933800919387984492946469514215698287224179668279002743236492325466296396995863),
  (1035177955, 79215348668194826887965548741, 20317763014088014389565939536113560685584762231065913000322320915641382876658955452740511908566323162112865315489019424789018043198111007),
  (1042360673, 79215259764883659457872166898, 21736291967472886183565350339744760927340735357414152313165523479956801642823484378003240663080060372862618541248847320718951743969228311),
  (1049593230, 79215170244796504817216513719, 23198377242281520269787029938061338768404767706859212019044426050640051005892857705533061130255191164589398645499747986899470335509498789),
  (1056875971, 79215080103665266310784948020, 24705122777020322981871440933203386905095938251301081638863975150993380742752462283165642988137373316658238700011592158699425225642177682),
  (1064209244, 79214989337184749233956585426, 26257659893016615344670642525458111548387127576593015611139492986994882179836684277499691607309936025486182317134425332735256801717114433),
  (1071593399, 79214897941025038710564435451, 27857150015811537807941146768171849953502737301568914219639887000306437172656924267157532818459203194605191179206620120342301436709698735),
  (1079028791, 79214805910794368237540484868, 29504776920857190486220769108367970101300625187846593198167234164749233925628365426005258228148632167258641876478069879574011399320213418),
  (1086515774, 79214713242113384186019499332, 31201750941597969463038973740558339381250582291344160457549881461715473932711264376606641378527846614027183188556564467045311316049697093),
  (1094054707, 79214619930540882375094646994, 32949312889860345477611028696681251218550853580474674786580359722900922560542780162454954447319074970543675669544963927137793418475607580),
  (1101645949, 79214525971635695141522588587, 34748731889704665392951396800465343712343994626429680714658684278367731829152606083342889637748242029106053530487096115541100986972725480),
  (1109289864, 79214431360894805426997466834, 36601311785331522306021114691883523132900979917430298545074497219130472870338781724991963494321251108215260102638615654426810353868135917),
  (1116986818, 79214336093790479234595633362, 38508377291610171840498393524280649352426615344619718580710382899981549255052319585835616492666960008159213406427308179798965626380439431),
  (1124737178, 79214240165782643375604307717, 40471287884673085560511803110846597896356746561816105416180558525925216014591069121452108011465849681674277301324948687276669380385725067),
  (1132541315, 79214143572281754291739346237, 42491434751031597600886225996903191600370404642733814070935047908683561600141289469888297020350252394137184624493002181172924145022071620),
  (1140399601, 79214046308685930323488660659, 44570246461191881540582736746153830589700367690479812660745673847403211281449580354145127174237056450290388444714020474001155366988001849),
  (1148312414, 79213948370319066276467406063, 46709180177124028299362612911381285776566211634457693126104130665432828732912694450450678201688769851267031832002099921755028994131378451),
  (1156280131, 79213849752517474422580343366, 48909716581613727965059329813010674966179131637474355223579891813284550323563558152600242706803667769964335036944043217165081950799509624),
  (1164303132, 79213750450580376228220766203, 51173391475087582269361129937677206214347849378072154129783645751511986821559136559586959401369780389687402416119690457110171155623448604),
  (1172381803, 79213650459732771591464280065, 53501761850178478690250348815599647005954751710251552814745408264499756177234092925806579022624110884804024000079055361597752857083694676),
  (1180516528, 79213549775224456658735256191, 55896418823461105359356167381696039665950836836282347313095161599391561442452941442908797313505448911705099567995376626192520877825369471),
  (1188707697, 79213448392231007272730462623, 58359004511438720905454332854405678356218084551355646132460102339049502243677511522597605985607346780101220024972698750855593557803854895),
  (1196955702, 79213346305903288209894268516, 60891181289177150070769496268815927537011896182393654779918245771054387989776956640576309171643959469748356617014603555530152523280177769),
  (1205260936, 79213243511379830837323890905, 63494663390007011762932943777868700745125621435715040546222413636910531137663594720941598740022678869318685038558097866369742999711770139),
  (1213623798, 79213140003724948360162428803, 77238538302289389651943138239828241162630686013337677342265991419641422029258546139391617752096632464388974921846800466996507086368102572),
  (1222044686, 79213035778015376004283665955, 106220161107277588616561379865931985769605280757606236112184855357957508347112770002784834545034172563874375115552089808420893797831487936),
  (1230524004, 79212930829253632237211010684, 136190294759124959036569816194097394278265059568983563087346409520712093922729870032994227261764860779331642514747423302489592485685815595),
  (1239062156, 79212825152442281734999265122, 167174963819549009281529960374433188713271866882867278533725558834975381130739650156639071617792032383731215399904673276468695453543273813),
  (1247659552, 79212718742509673916285371397, 199200825725663357037819315636620847266654007397103185154538970260732878559522742915047495705013049937431559851247387650896130149573044596),
  (1256316602, 79212611594384205728938346270, 232295136802435573031289264798557726455987479997749643689763035990443609963848070589158426292593154767670911843251586309162796957656204262),
  (1265033720, 79212503702944814306387515249, 266485837824525641068724305720992133001731302175701516248690361897737394153920042176363636290073423437898052673852214258807299020291454448),
  (1273811323, 79212395063033354718239259143, 301801506988193185942521947078773855549755422455569278584882688654037506884783652118917397115227517548607683739985688944124072718847056008),
  (1282649830, 79212285669466977628647878232, 338271427917181705683252192065935558386841120831835299885806755898354619689174487947575156576971159842933540483236499647872959702876366294),
  (1291549665, 79212175517000999250365277819, 375925551383326066613004780091337727081971019376046400220125448853682606383677981562152575952674634839465129546274443493764092270083948959),
  (1300511252, 79212064600390786698433164252, 414794517325956632406047478651554506485434067138669933455445215215850559836780374381796395751107428381010880760983344675460159365378503953),
  (1309535020, 79211952914329874156324210354, 454909764928104579046850194811504981505014570156257395189873862564947854603172593744783511897935500387792108005447873646561071412777640713),
  (1318621401, 79211840453474717523210466797, 496303408554594582116537033148938875081215118042335671980887002786544073573212839507836205961890366295241216815324252800656052617933817243),
  (1327770829, 79211727212457072029140474187, 539008306426219614358134859078363011066638670511850064949606229189982940014877562452165838651153952114436200979760994068661035700927518691),
  (1336983741, 79211613185871616123272392367, 583058175297149648906743114499000674388548608673318598542012484129168310798133914554274214464028441466748435675988312268249740635855060088),
  (1346260579, 79211498368251198680439358472, 628487446634368169404973928416442440627492486911187675728342285491379644894101732523905356206487516037108636062100630445062618438706705719),
  (1355601785, 79211382754128723883615021264, 675331336713381722854751267452771317290354963457276531853756237765274707968599699305783742863304529812183094954482091037024595541530624449),
  (1365007806, 79211266337975267970110344628, 723626000715971999239600659657133288061405082809653705323828352032057919221453022521110696231797762250354218051743978886963524789259089585),
  (1374479092, 79211149114224833725372143077, 773408373403903537696018168111262677164242517399932449193761992913573643038737297606404912930854476306243328740967830363260604441686327452),
  (1384016096, 79211031077274351321550983915, 824716250426650201031916690588085985827216501813046822889784436684363096945127633597472557432465580896291793403084194312671147026099474543),
  (1393619274, 79210912221483679165683569257, 877588261389911545838894174385192859158762524158221381394765426618021045276231014581145061209060988510354755286330698861386504291928294293),
  (1403289084, 79210792541187981443915980195, 932064063441061949054744097548030561391779815320606304195847130219220796220679237265294717210474625759998864170673198483599019399656550281),
  (1413025990, 79210672030648222225023082066, 988184216022630999177782037492557441864128572179667452641318638686843484655683891249114129658774682139849370410433566749977083858789903390),
  (1422830457, 79210550684113049863809363670, 1045990057614578702258260632557921028199415247403809856851726085969604675800217401954544019970823428006782357871385918254758823761793557234),
  (1432702953, 79210428495794044441470867945, 1105524087053716683411121538126990821698371721452080300564008923113547189238084714449897972380258684497372630736172137562585704769110399503),
  (1442643951, 79210305459840965442792303257, 1166829696787280576151055939452131935375643930581642868565002864386885421399062037579888035916720828292936197028421581553858873612882419262),
  (1452653925, 79210181570391259221033696152, 1229951391227099186871066281825926327344176309142649353292871709656473873560101311979596224700820650504707999351881186776137856564351336904),
  (1462733356, 79210056821495800295523705745, 1294934548736107355734940830549318916202928742271927282724613771463276909688494036363431989423169659984636576367388777488840993634069716462),
  (1472882723, 79209931207230281638446959373, 1361825686559439838775665997540801892627598992160244332198150701245318957400753836259583143056518585558789672011830749337543175391834577623),
  (1483102514, 79209804721559073273285869471, 1430672503415135649232574666206912336914708690176235818983731598400191164572802183464787142032500981044457150805494239814599421360653040790),
  (1493393216, 79209677358458988940880077982, 1501523497623702908037045579145715745393820323410292991620481625539909555833656602036748880248735540233022053044205930133598490180259511401),
  (1503755321, 79209549111845027713458032347, 1574428646850331222630820062266027381002236697463275866385261088900770479180141366454558625293640306279799696550543871327650475828475086311),
  (1514189325, 79209419975582751640670277743, 1779095038556407540614966106653452706406092615380778399039170527589025420639967678979482283738805147641007231445505734568292047017588266696),
  (1524695727, 79209289943500663288792223817, 2187760375232370517408438835174615821489559208675076393849541953236628133759939875108271592284011084943684457474837420591814821074701882439),
  (1535275028, 79209159009402583170304384797, 2610163182440498106694239708132246153817008192463450897179057002236933137348407840091021638412998592751458892159519259229988990051345248716),
  (1545927736, 79209027167005768598035810181, 3046663553882685758393781102278282441925443465809928098488332863403100214324917574374837781258762213950351992791201489966235740964620285173),
  (1556654359, 79208894410027549847717297905, 3497629665959370944746098448925119741764947466107103919229426570472608591125335689883303645469028795270829380426672916608023235471238425157),
  (1567455410, 79208760732123449036853002051, 3963438867234108072576240860730939928245728825470432296877064653148333966375528158958893429876484385475641439936798946888056241543147045991),
  (1578331405, 79208626126911934074361285469, 4444477484077613673301848171493331198240604006135876066467701847667353985202825861396622262878456977420081785633778117171941976682303725547),
  (1589282865, 79208490587949667065384532515, 4941140878203201010860213827021357746336829987558917348630297871470452718173011205325766966584485550273959975311400070330521782883632646975),
  (1600310313, 79208354108768634510334468544, 5453833663226092387309566195342373476429622878713892578902842592974944994259484260772366600964392402565210603614767770114902775481729677092),
  (1611414277, 79208216682839019430519428596, 5982970034586066654660511917616219747558372997872985880826377790025490463449253918210944053752865959104393623478240937069140176687504732683),
  (1622595287, 79208078303606331466079928751, 6528973555660632249213469701838465177693227447115256725491685807946721756202677032588369424883290730445026752280558056895763836472676901621),
  (1633853877, 79207938964466655396243997844, 7092278909483213925404578771245416564599845283235209884834322351585747916155135173348110196866941551594842266960320569140428006615245544575),
  (1645190587, 79207798658741899932566503419, 7673330312657118798108355725605027261839477413604949982683819725325611043750736574900948710811100810275686615636979018214578146739847263290),
  (1656605958, 79207657379741680166870185416, 8272582245056741544361780133788412629894945926063779239247739920196972205272224117582921927359126781463187344650522302063583404079403239523),
  (1668100537, 79207515120701437629255130965, 8890499907705939845098362310140424630598299629091711012660067450984949515362155061350594503710463522136515551088303712601433089475258861066),
  (1679674872, 79207371874844322544067832355, 9527559212935598508068883534628542882443207350645945610513344853548753587980244964940541371040342877544633409091830640527350804475203760087),
  (1691329517, 79207227635319314136187766530, 10184248131278671664135521015134211161369837645840137581976215878595358551105630890197201857901985044496165391029364794572529653965979712729),
  (1703065029, 79207082395238350479239812774, 10861065198119491643644725036607401774645763708688453215355451870831442298463140509311404592454455672750260723200571831725559695932686234046),
  (1714881969, 79206936147663953617354665094, 11558521503808580311995980293478427248233867160668358563274648100128294053513511890619844780801400588783535281742053702257237144055114804524),
  (1726780903, 79206788885596854838042581745, 12277139722606842362902770066243009025872380021855668150202143248727371991817702611204179876843446853081042093012758648721178796432268082036),
  (1738762400, 79206640602000748212427882052, 13017453054053233096649416312538937850292275714978737352469801823607725138086779162488705323018002663546720281453792538561796265528763797095),
  (1750827031, 79206491289814667859385170691, 13780009563709641149122686444620212275053083011917875101818620555809313432866767767802629673382364875426086394301864740849697698241570957340),
  (1762975375, 79206340941878733146783020367, 14565369295544032524918339931012180793039537864379576072271803410866463955084895324339065110937673822706116691469785151840093944489739914879),
  (1775208011, 79206189551033158295079333343, 15374104452232503587390875058686368113711388802459907801424068155240551790342213812753853078657576979932644047830483294094489840829656517576),
  (1787525525, 79206037110031621714112352754, 16206802545775297483079768288571940666132926297423189543046280165874985040846168479274004628518403272380701663336050023463402418000612958856),
  (1799928506, 79205883611590771466151189168, 17064062789663256706429402843073917196649998411845459466398158432827859442593841626898531781292699493869448108065066907064867766471645189157),
  (1812417547, 79205729048377850697450886026, 18368689069529825084878667325095547121137137417772394155628398204831729263226959036306619760701755531179315701910704653361491663489338509398),
  (1824993244, 79205573413023074971571071702, 21509561125653840090026543849062074302389724718691877135357743361154993712667506379818659955437713807554201916615066347445315461733835034210),
  (1837656200, 79205416698070130240792924396, 24754644785274973831582087642100651275837738361434102850109884231435960994674746115784378207075455004329016433518915717709694096236669888362),
  (1850407019, 79205258896050429640746160456, 28106657029526093225477446749996252161425019704072159777287874388503111206615703474197600109334194001171264466164765260954730043749209972336),
  (1863246311, 79205099999421235650428909221, 31568383836840035679534909532004506666809119233563545461106637645768009962373669003313181181910245855143638765424502580448589555571135739653),
  (1876174691, 79204940000578037643071042699, 35142673091088545279668730672250119822629244187517749404545163357958450116866398210298677543812695208805940830470613355543308148866762359770),
  (1889192776, 79204778891891680802005851599, 38832438614936003108705131716829393491364396688447841140802216711085978689514358050407484896829002236289416888675076453068579828452757094699),
  (1902301188, 79204616665671240272430592850, 42640668841345449503477651308395433030072309798132051666889242264977885940144391502256470130351649114804044272724602205868343901654674655775),
  (1915500555, 79204453314151647176825123389, 46570420765252137979660902048714486537986081435230832336754078359144196810345517328950560425792876510162644236676436406432264436156633836082),
  (1928791508, 79204288829530817485714568847, 50624817443793821908731311413528910449649713171703859415009360582254110022767599971252703783953166974476453842577348541925494944145255517638),
  (1942174681, 79204123203969653513365287867, 54807061682061472773596325070933675268411924407845247984171009812448435598522289944695818571743160312385973765570721952352588478220684515977),
  (1955650715, 79203956429542542956398115053, 59120435046233806988804794581113592987623441495595395817061386063126611620728945001781372034365666729842680117959100838085856302812650842833),
  (1969220255, 79203788498274487721627745904, 63568287779253054861727749629630805287563265751979031538219006577699710424950155188721347740350732285168373091033701668278429167927980383415),
  (1982883949, 79203619402153481174119192826, 68154049622342223454117853588462741205410742902456853887569035593848357292309792932478851926899923859422442862823542911232097851365759385552),
  (1996642450, 79203449133105758627757547309, 72881235458158599031726565540699499578492896838811890171322165003639996119279062161473181085415588815014195918926592519625462883098698069243),
  (2010496416, 79203277682995799197891449354, 77753440223194303856096060521476732671720151768540472484039672648108594040175064021547196423553665951088161641923819353843959325319024457542),
  (2024446509, 79203105043638703161174566214, 82774348480522999479382899862793601548636066969820412691722561096476000793659973943868806758380115963508495671904817911936562054785279242506),
  (2038493398, 79202931206763067342687857813, 87947720123599329295697398916125640185010595667985768262266829641823936131581602615892604111122657778155997204305279600948311760727146898683),
  (2052637752, 79202756164097615321530537890, 93277406411822325705905909228231523786725448633171655028677197967543757304205146331469336347825564726607823512801029963130717892275110201119),
  (2066880249, 79202579907259820058329032325, 98767356430443213879440321081291456845787245863666610256750595385724207174687789785188985880384075487621145246815497681172107283190329179485),
  (2081221569, 79202402427842534034930680301, 104421603937675304214552244744863925099512654408033904149708700917965941389993140895710502588898104345917654869365485913520604627130186564351),
  (2095662399, 79202223717352114086437441103, 110244276941509331179160400965600149547523436743005668210570857837557518500757540287742208435548772697441586368440201888572383734061523526681),
  (2110203428, 79202043767270300284818367594, 116375633007645447429873855030687444528614754908432009667583544413875217506271561895768760782616026602859062622939191537389861160253854855491),
  (2124845352, 79201862568992341092285941814, 132477445808521257098963842476932180623702291902088483865411779082938777321359170839710054502800781421470580646929520242298641024132480367844),
  (2139588871, 79201680113864121485066856454, 149107019495385278289132675672881211625346451565012403349917335366476215035728425710846043933585036235715858482880089587431098121081233397751),
  (2154434690, 79201496393169789655129407404, 166278061578331235180274038727054661561826415536720492012276400875767158952250873560645046455772072990951142899093694115826970445359668007482),
  (2169383518, 79201311398144134316444144376, 184004613074522756872387642636467482679685378288601030726605716574050175541393745601901787233653402210653984999871787348084266469863989477146),
  (2184436071, 79201125119935461157894629587, 202301044364205150899695208925293056292188991374594265466005922771084283041998844054538275130820987138651378046630038376654732186703374390922),
  (2199593068, 79200937549655095870871748549, 221182047999490567684617110259556879836557953532335923089012112288262757126959297131621897377178596260245834939983163450077628178568354307938),
  (2214855233, 79200748678352635797752043824, 240662689538678618195675844841672331129630620891533837546880765169151140309313690382507854182510738524402208482032521774930647857937167173620),
  (2230223297, 79200558496991201956063051516, 260758386960151046425024589350925961277730774300533214405515740033738522045562927955129431419637254584764005793595817083187791439278679802347),
  (2245697995, 79200366996484566733854122264, 281484893973261610778197521292566512844625782133945420173249888066428311044932004841478742059733946300841730247003358763344740197553016989538),
  (2261280066, 79200174167697155992993546103, 302858346994866405988626527356484328257283118562460206718878777367216899169874786935984154412239532983705003424541045284735297592294596351456),
  (2276970255, 79199980001419301201557745154, 324895271381710121616325985672600020365729661354275809352043082417658551300892523430306652195552347807251820718344951532675639333019136953526),
  (2292769312, 79199784488379616854828197542, 347612591656560041819178125600652189047895181422996820269216182861053293286400754494224378199583731541571955210149160935124253128963965867820),
  (2308677994, 79199587619220252934625906758, 371027587820464918076695275801527989846750159961969182008224213420734925766224545071661031002650336238462265183660720712933689426977094269742),
  (2324697059, 79199389384571147003769156961, 395157981174101198791831311224750710510841124627745888664635823194980979072331524875630981060837998094124196362703173511368744790578446414502),
  (2340827276, 79199189774926277236692254065, 420021891854496586490671815606124988194283019381008464172034045833687182570611254533356456864462034160677038575950818918840660876026410849171),
  (2357069413, 79198988780792163872611833625, 445637865911847150332462541077149503202420010476307797554817720535225574340006995307991092207747127404502201643481087527041742668053403996235),
  (2373424250, 79198786392526998179496214467, 472024891354983753608918638824271601388549044161130673512267390660759632772325535246138339631913640408092969874569270375533748537792562565168),
  (2389892566, 79198582600501518151676374972, 499202359257084536578693826078662100036896150327390096916829980041165340963247622190633596698144298521809991577874414537635470810360114686276),
  (2406475150, 79198377394962887842406360117, 527190176527153111952019028026777512214194915735797414678937732979106847988313228270810892580309107153746253810030958310082347223020807053956),
  (2423172794, 79198170766121323690957466888, 582089010010407480211353706659415300320022788227767602871847647910346011844341941826184416817870668668574797311881490952631614807977430467002),
  (2439986297, 79197962704100598031193683910, 645874169107643238568130679376409448319663590160787451900586334010980167935351721666915892426186466990506859372680415021712707981881305846545),
  (2456916462, 79197753198975165950500313159, 711714647184410519903296582760378797231061572273050713382892159000842303406867063665878147864005949918566407816280443107080510688466525377176),
  (2473964100, 79197542240720669279497350755, 779663555181826427026363372559155986573177444703137838059816991138330542026129679248517049762411708964593794885353328692599245782716029848182),
  (2491130026, 79197329819263438066630535732, 849775155920086000605712125371609524551370132802379274131952869195045114372138903033854777861528453284075413012198758067230974369728493012007),
  (2508415059, 79197115924480493093257192302, 922105065436929916531956474996154165790591192224845339238694297267011133754691106265326400756701311979669217076515646734003488553975113947046),
  (2525820026, 79196900546150050352477136777, 996710305296198521465461248529456382657235630822953364933532947098330998865304066653688025781461259275651332400441240703012907761960916109800),
  (2543345761, 79196683673963898777161565609, 1073649083280916398529460482238897771241866845184443913283326101549185807332019777227970116013831775076696761775377659706268385789699038439134),
  (2560993100, 79196465297589275595195451051, 1152980970862046867465361921008213107451810541481953819638580420403097285548914953058956190867395979339752082521387106000550285139286793431108),
  (2578762887, 79196245406594622145219214278, 1234767069751564052051062786468615337931878127939385084254962898993228900964023864240954522247515788311323827136558575049865814433052728042525),
  (2596655972, 79196023990474335988379567335, 1319069855758711550204585359204611694929775157762881045937205446668206481755802907107700030701057733142626312975115267408820134213202114165324),
  (2614673211, 79195801038648773956483372306, 1405953228199967565248154124868624167923394797013085456590555435876010103148405542137487491000781172633576034338252710898770498153437402587832),
  (2632815465, 79195576540476629544459407126, 1495482567447597064250321331203602491058165822196368967092348721351983777981807263890336597158632284792182996927260142055408334033287772561239),
  (2651083601, 79195350485242561579686611648, 1587724901008956265275333269209504823745603101331689146885393177950306861108942493953583475369713002094110074044713051507194493910029725325284),
  (2669478494, 79195122862132448899265875160, 1682748660481061171500801332484412408221398759010743946940872433860080250443321405288497631102612150512922631258646974651966641569969683148062),
  (2688001021, 79194893660307639110606728448, 1780623977912992397324043519256952561658809721893590000512845740449625894153013803588095671452339891464531390117444772554130272224767689524070),
  (2706652070, 79194662868793583607004040328, 1881422645242968524780509985441145877534704513828758435200005316009174027811529347426387086358597930863401527054372991395112047997933757246317),
  (2725432531, 79194430476591208901996778739, 2058842915975957518450693638589030258256710603494938597241902851984326013180714048781096351411477928908307374141706073288297029106832651618052),
  (2744343303, 79194196472590300554508944356, 2258210539310145903024687618043040706094973642680246643965284163045884124008181068928346208246799113690522836085051751544646227375582036342761),
  (2763385290, 79193960845619003283299026273, 2463932332579241808930063504071771663708097944409918266555475457226961587129308714784311587476990205098408179597234572193995470520305542356375),
  (2782559402, 79193723584431450144862279509, 2676171790895844238792676912622880212379004735217474871511061468481298280210678036886801051351841850620754051789794130642135541461655768634169),
  (2801866556, 79193484677695391970164440878, 2895096266194838785513579956131858772806158800291662580285261134035625253472909653496728794452595097781870322296631236482476280703114891692808),
  (2821307675, 79193244114004574954735600536, 3120877121383429360202222030034639412797644713415336314714309340607707808577762266628472238609123423937068481893389841740242996082440640805273),
  (2840883690, 79193001881853996345366366746, 3353689522974775226238604091899614780981100946388538708059133427931674040080932931103826275682084575796748335584564402533197785030346663622600),
  (2860595535, 79192757969701777702994419830, 3593712757310976721425989829098711739315808214308368786624384818902881468010550937437275583318702614264026407909416004447729054874073657772154),
  (2880444153, 79192512365894924931825493299, 3841130602718102199237040610509192279132848788928064755474447986460471765674816899361347575311977396474645962306570049772484897210688436195576),
  (2900430493, 79192265058706453850972208246, 4096131064802300585107772694809059319666827329234564766281614777279484561959788445829258163413765536724930618545104341306944868758022373160032),
  (2920555512, 79192016036310646356172784334, 4358906249790224774877337383129663853856126943310773947251999907066366594353171084045209793847137566940328624408699297219488838970098607708478),
  (2940820170, 79191765286844923086365237904, 4629652883107000865563586505462353196862866074769366229469191173483598699765517377970114548270768815885282088880746621638647762887845729493247),
  (2961225437, 79191512798323230870180560477, 4908572785273493140989377909965243403364883250085250077043614005129578033352966779124275915251970859132069423381256690219764324734329688194989),
  (2981772290, 79191258558673168212336877619, 5195871674315705206160810125480989000689007236132606171925319022096751499581848686319582009293120173580733466820677506287142493752701825748154),
  (3002461709, 79191002555785483713251308580, 5491760324919143003021073484713882287041699784570978344448238533093458378621800646812354946149117734588985133774415426675575188875546062566449),
  (3023294684, 79190744777427464476649700091, 5928088187487211345298076223769426947023972740145170986641680219363400070808629974249168183953167894863072854151678719979865845845859310956978),
  (3044272212, 79190485211280061384678685200, 6454237393824264832547917161740868414384628802809149656315371507542898085312593414068081346547278321077508988089209441232287277489704498251699),
  (3065395295, 79190223844962640226136756291, 6997011394940963073890429560389821101882454174045904883673450229008505118104059325241054828766309556870627049467732804666846235079519114992627),
  (3086664943, 79189960665995865223090621686, 7556836744180383750123402873366857713284295148053502061730803377481564461497006610307399912045332191637863913794156420910318024451741537277268),
  (3108082173, 79189695661814076903138697511, 8134150048513762889159818356045127165901853070020443397547081390602901984637891311150563673897049092162218326590309034239574803022621415431929),
  (3129648010, 79189428819752923078799425854, 8729397810513812291524841182449118372701476273546053441390071531887761674845310522424828672914387220454880584462399361678821296174743842856708),
  (3151363484, 79189160127086483353885521899, 9343037094817566331383594852151110263208490078751975752815778613501040799863373900607922163865457453314679442551078767342246499056230025287940),
  (3173229634, 79188889570977780075828614804, 9975535916713680855261556148033038591496157473634028168644502031581600316489856741057517776633963050285299278433861120861667242179031499358217),
  (3195247505, 79188617138515902901842517466, 10627372983398938075215588692039703125508197108982033356300030735742288338929429459175470049563559659702226012507003398470917997851056660217367),
  (3217418150, 79188342816691266761013167453, 11299038424866412814352609031310157860114896159932933027885972743454584321687071377611362546358949017325737495062804479719806356664114314855986),
  (3239742629, 79188066592407989788065698143, 11991033542680567797391591916561455446135124429217616897477469956604307504650728855745275054718432506242056141421988808344972515736306348508998),
  (3262222009, 79187788452483897961375246350, 12703871833080750919232082007598723286770584650781822630606442030410490565905265135307611828367933140202278432830005738044133515531529203785839),
  (3284857366, 79187508383625783697604707701, 13438077957988848606826601736238464791128897916784286358052442423654418819657129920026069027158649787094769726346334204063253603202255911070972),
  (3307649780, 79187226372491276057458402532, 14194189509409263673439750564617128657445047203514608298647021149986495741302461899527797634553407951235719620483014494370325742956212282805634),
  (3330600343, 79186942405589861206753803009, 15353430372899023107162721223684295932305256048980455729086608197370432306984275463134216804497836086549301083450857561319512195651864485846546),
  (3353710152, 79186656469369498788869384488, 16593308780268643539972534550669266055895897041539720591016556430256046487942745310545542523682492443920916757161884884377698361252017843731624),
  (3376980310, 79186368550204253525260243906, 17871960285964628897722809359940378055292343842785471760034044992298867697257204696251244147653604365038116771787886677472866454111342293697682),
  (3400411932, 79186078634320063010195021435, 19190376027028813148917644429021751761804162029104169057438909474230641137919333305276563114338618977058729637375449856447728339291223077637047),
  (3424006137, 79185786707893726107443156666, 20549569351465035181762603458419923344085325299124471899084268198100461711945628457321548223455474798055280578783513579988152189670204859448308),
  (3447764054, 79185492756978670957281956288, 21950578204711481379759276382711816581833331085055329342453618675151367953078684155136729887715621054772971608084075275169278126100135856419320),
  (3471686818, 79185196767554451561439053751, 23394464725969541849866395810550077294808830276162264639901098208544864697157857423851170575901424857987074852774369588698217839763229207001198),
  (3495775574, 79184898725477262199181673826, 24882315474219076982053239060489693584834965851221707785800048966355621392034082144580636246620115384333047216579169355374469027073129489848240),
  (3520031472, 79184598616541806364220836033, 26415242642287099429879026731149704558998285264988165484010773323094521497054210301153614307024714830407492613711059140412933777083583110137813),
  (3544455673, 79184296426407066349189971749, 27994385645064188252284878702246985964287914804143539957052903233117070592765106489229852310047327556559007688444388818575444405475146843606411),
  (3569049345, 79183992140645799579244296710, 29620908152698457117887951053781114673597347404689180604576619584804308883336297980150006206253225410870790939150684657622742937756969481323682),
  (3593813663, 79183685744744544072940022347, 31296002486024506799148595496117382720475045102517745196814371663633653166816057384644594792581035637540792540450021748461533578135221753279621),
  (3618749812, 79183377224066506755843276503, 33294089963028487975620070772224573356738369302719176745997942660874683934695816255831844669954131472647831464428206028669127656018807582118942),
  (3643858983, 79183066563901059188282240111, 35868739523838452960363665784559059218936249863886292778300207057351612197710113806634696047697745193920612776107201498440098948642476771267308),
  (3669142378, 79182753749401881449646539235, 38523490930801364735352468033171705926491679723210538616294443040612902564093885005074153829473188390708052889189347259674707575332378579744855),
  (3694601205, 79182438765648830117274241275, 41260385717837316149021084696918083543640960352879291468235775943850767814502688134502484037427508775207723263194588298021479383887678325980648),
  (3720236681, 79182121597610827190226379823, 44081515497963487817494937053347094071408063883172409408591136074274841232923142575617120534538985997789818227385433401448857602775260300271193),
  (3746050032, 79181802230145866439811629302, 46989021023482627803319222782098843934703839175449817839186025221941005815336625856756674678221877534285160670320404638935322083592928742146088),
  (3772042493, 79181480648001019834906108336, 49985091347093963582725868052501675418642251777160077604841037938305204679338109242622307205692552509877718662901254998128079683345235651511105),
  (3798215306, 79181156835837188154322743070, 53071966209774368148117129494738630697403229257649517140763364176768359190089693386116500401331531592443163995318719600092874604115491149467237),
  (3824569722, 79180830778204363044873168866, 56251940527768518905225670254781645260677530043417190840822261652408852581266486530773809816057528717847019915221327368077426989992126764707505),
  (3851107002, 79180502459529261714978860272, 59527360849292825559141256906704504477104744289896934492344072895309374956851118751840795810710319256081012418567081372434599958394338234699653),
  (3877828414, 79180171864152449623333059851, 62900628000970520864028809811505471592153244683044917033718037150058033169660223662739194414790359722216678694181334006204585483586687079738999),
  (3904735236, 79179838976291231216114549458, 66374201045602076281098313954212292533219512326362789415766365436872346266227663687576809671283948315935966776544626643366270912607122354463220),
  (3931828755, 79179503780052028865267825512, 71038766709832217069738551509270979692114574439786035898049345382589439849529349081673470662515611768645451232712245576621186316934143609349425),
  (3959110266, 79179166259442761575765515927, 76114638013644861298195007397795750252287385347699060051692742594387763986657558497304300905092254283925622173875029562842256923622933586914571)]

end TNS.Data
