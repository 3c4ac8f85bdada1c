/-
Generated by scripts/gen_xs.py: for the energies of the grid (energy in 1e-9 keV, rounded
down; exp(-energy / 6400 keV) in units of 2^-96; weights of the three reactions).
-/

set_option autoImplicit false
set_option maxRecDepth 100000

namespace TNS.Data

def xsRows2 : List (Nat × Nat × Nat) := [
  (15892828656, 79031662905188452164038951804, 840185760808473053648575689590281433228931215593935526823343507936477448928056171431276993943744263895242983129224750599567364513494365541097867919),
  (16003103137, 79030301170731117676312637151, 869502124965375198139731761820502238734025170160567919675400236228339633658066809803223658920482422549035507172458125302724025294641478659760801369),
  (16114142772, 79028930011407804780929659241, 899595984933142495137691594953624484114961676475812885091059909806299759065977820520309501345058413272558658054977197509988931029249517686601474330),
  (16225952870, 79027549362154067011590726743, 930614024098112226556446966180611332096475605905096546156290342600364069518491448761341831457109909538849173168339547534373147273065450148502583663),
  (16338538778, 79026159157444224245027237830, 963237523976130768628795211753568741020685472040631531540055738763869267898217310544324722995026743678102865245370305114714780246553095501565611135),
  (16451905877, 79024759331340873422945658580, 996727494277410422075054311630408350085370413801054529705812084298398127976707696914885245032444879732567967409779951471795706901351873210477592273),
  (16566059589, 79023349817408574001857476681, 1031104649877238065203498879330966308254286824735871299403129819629042610933237135144367224100277480069150327984386554949996327673484314317377889968),
  (16681005372, 79021930548775710154791081809, 1066390150174572722724599663800148684357699822687508855239642592162519903083798858306305083123917092279370838751260197566171604040490036953547582200),
  (16796748720, 79020501458134612998832987200, 1102605662888154156071136364568293531939299822355414916850889698018022176870921487286535592596907435533493529366596311048372764403303438987872951558),
  (16913295170, 79019062477655257113471609293, 1140425685645078900594018075770728597834067752966021360316812545522213490636383633489151753158045792470866970025555434496095636773217641125496866855),
  (17030650292, 79017613539108858507019701911, 1179328701913911873238657976028932897870740424603542082704453747695996815107765705257224088482875257997420394125254671096424799097594444628183140572),
  (17148819698, 79016154573756881277454595209, 1219496485772706021487385519165036295218140307490672562537151902593683401607658242376225730622607597657879577673306133043376304801699264915390623888),
  (17267809038, 79014685512400556608775340821, 1261223159214286196349839341826200446133548678005647531209770161522583142990403169577658164225918020595956699696139172225816981376677217535177997061),
  (17387624002, 79013206285356322926351055485, 1304049553996377795824384410905120587805621285431872533948020477197212277252475644108724278773040458252852690007892062630438792563191296640935776299),
  (17508270317, 79011716822492998255510373744, 1348001853689245290974763274383211276878020838408579355750864356152993305324258285065705773964105777958482174685587316429264836489990446070917799895),
  (17629753752, 79010217053170187160029127738, 1393106854586190540565734893111504083861840137180700433993469238298186279285620367062415292242366468225220011862668180467962270648998282775933894009),
  (17752080117, 79008706906250766933647631238, 1439749870560913794159066543776027338556968747363084141011494067138764554432300761988600359954008231295584443373555040434706870921187001553812598372),
  (17875255259, 79007186310150408632624476269, 1488310336867270382274561868068713021162595617930461218339989479102051999755360602435888200303314623685128122871183333473062158210697774547412656568),
  (17999285067, 79005655192775992303465096160, 1538144652863943681927342178634690098438306967375600370869572126285943592099710661377346624240133084965734920944786271360748393174410945312677963780),
  (18124175473, 79004113481513408564351817381, 1589283084937627839991679135318351534228339087228981037266503211051360318574043994184220322198479521453614528929630334554518230606529453973455926246),
  (18249932448, 79002561103277084088147686054, 1641756559620617945136620659972771449507619471999951627126243840442314046363420523027984446580448736784137866522848835684975994582030146250639284914),
  (18376562003, 79000997984497783431006597643, 1696169274509221481460413816665612880392132875965767452950184688518028771167759077645263367245889261820723466152524430521419058014879090914522579514),
  (18504070195, 78999424051048695689059767187, 1752528537009553199976612924292095744692790096377354004824514609929883128611438040362720587983816991708442371341944367917243961040498445940412576970),
  (18632463119, 78997839228344339536566567284, 1810358855415291029937264724430154985271279494822777265767738132282750778201923011902403007006909161853219840331788732802650976425381342708656811900),
  (18761746914, 78996243441266653876800837984, 1869695113430932980923818840469145714505578249940720548217444256277456943994245124329228121450586449545249035104592963774945199201173257525675264182),
  (18891927762, 78994636614177499590339665754, 1930572956978619265510825989362872809812381773690446065315130392432154811115021423036226472078954040818026927114724324373163846390995401138232633111),
  (19023011886, 78993018670943504272561696595, 1994014684725387286890887873614164933185752309864995148090560400604642073289044472445516894354388099645130085842542968971996421362789398148951437425),
  (19155005555, 78991389534874508922786375646, 2059267103656778424807158220556517031845434193097466500040026720551096197520293362294806531076368412627684432591929347469246015113433262597318664094),
  (19287915080, 78989749128773103460920089169, 2126213884738927643199079280087012581598265581964382853037388770119726911527993428774382810589741368243720270555253302078958904055828515089957529854),
  (19421746814, 78988097374934790442449512623, 2194895107358243880727160963543976990869296831913497472266513422938791537252318894516568141108992678055416881258152243021948161829301291801314862430),
  (19556507158, 78986434195074100856697487749, 2265755535028869059627945921742893277423795230899985073647489383453588259558067048949268452723935183047932220081650572867481115060085567849316405333),
  (19692202554, 78984759510411159020822123727, 2339229650173206853426478301120541583633609374242908185944944928507561089738129918219392424356986511512546377749730363740039025603635462936535061462),
  (19828839491, 78983073241597804103619668946, 2414605647096973890081849355587697179409054742508865547748828645372397628247353673485888642804088651701174810529119286822656054601891848575034934594),
  (19966424501, 78981375308767131491628837464, 2491928416335141123194423998855016291829132786543242263566465660459400428597424420174035867726698910622265003172459136805469623216976596244125392843),
  (20104964162, 78979665631496645809800645434, 2571243890046891055717000988882780554873875677060725375146380787284681589434094599355303079027389990979540476159407638990749279117850507089445479223),
  (20244465099, 78977944128796101375945876618, 2654324062403378332777073208992011943425753520394657867328072398778029262237057778680186962402217119214420133919848945980714091029441351058291222745),
  (20384933982, 78976210719132366465851054147, 2739618021299792424463215681643247827097369172904344029402511566842072468405580288908516225342152275010873579925619094260744490563359527555209158438),
  (20526377527, 78974465320417267160126839714, 2827112781646884169132582474360250628337105797773589422341383925783145892269577188503510605766698183613086844374944410370128734445802617346414190144),
  (20668802496, 78972707850007774423311630390, 2916860228693766587524755877137330257016644760629063008704393480815638058825084657874482300265109632477192862711092806839321522572917927771047696855),
  (20812215699, 78970938224681514912159260757, 3008913430333262151998507562349441617787095085274410697247923200435853617001422403803209731940204038097288179512193824610970655046081499344307141525),
  (20956623994, 78969156360636965154114541368, 3103326621421853815901361460268218649543033078302527312169294639902124407326533440201880928980034259591715488359124368743387445526292032145000524570),
  (21102034285, 78967362173518325272645641858, 3200155247277610835874063501192813493846864161554321595521768749085687411616586045548002593742059649466229221637824127820775519165230364670673970903),
  (21248453524, 78965555578391038120796065377, 3299456035162659021166182616595046892034538802463219110259885749051828112799195233979322129528908493647637143679480376587679684415923494932191013475),
  (21395888713, 78963736489717314056575296285, 3402587243150845420110485314390887928349612276279451847317728625447731555619152321430640029423556700698798105045308561349234366869546439406694977827),
  (21544346900, 78961904821405688249503643921, 3509304507820586877551989723594858627910254325843114063684140741737768301767495093148573586137894402149977772677236304156057333116036522857015174347),
  (21693835183, 78960060486761873387744329711, 3618751567159351289492175192817951967491567076319748434882727479675297128920004813853721478883036302502373822139662383715655464748991865099055714171),
  (21844360711, 78958203398476633303214814502, 3730992494765165363900143038427752429305458672778853448858534697031711550238702142384479928042563891189815861914863722360155501464012035288822378332),
  (21995930680, 78956333468675345423128110221, 3846092791922887031654250772876413667360846730870280335771958525703579638200423943639314107072778316939900172898223655579378666499088525871147181933),
  (22148552337, 78954450608868865589171855564, 3964119458866000682348583179311460882501740319633245500027800141662102853584268959069764893062913359571463676720615762708782516208966906227382643112),
  (22302232979, 78952554729966084063298733054, 4086299360501102032251517951758064183054809267571636021506442911365835682591333979484165702093252432690453311675598683907253265334818637710016905221),
  (22456979955, 78950645742249474167541067909, 4212372471875842883755350732940361542355543142473326781368497956512984687136019637104983960022675285563741786825685833940235567966280214594539213525),
  (22612800663, 78948723555412325750585480108, 4341651030287130260276854061955940171884530985601085065541997055783974073660915865224895750829212298069735309105194299167576745278723319561454112316),
  (22769702553, 78946788078521963215765102992, 4474210089482204446388614669789137115139264183141110102234768802978342397469154153560018770802772358569231259955479274610352157759589453033983676094),
  (22927693128, 78944839220007641842400569686, 4610126348931504091123595121522903197929862860862230350081098646479260392343892306316946130137053309654051832070213024264795353455047084028617661385),
  (23086779941, 78942876887697787913451802063, 4749478228490804041893940219649993865731971605409579018948190980584938633968046680619567886371603553239849009432842861621698137938025336766856503530),
  (23246970599, 78940900988770894401438241057, 4894016707852950501261952070307330903676921539842533364628304395643084200037840688054204253781162734596460687764120352068389566264502811425442095934),
  (23408272761, 78938911429780432000817725302, 5042500432683156738314834185550794631754509456066072674783692361353526212827427213424257879034233967877593144209172574601033494278348429281527754453),
  (23570694139, 78936908116642757538450756605, 5194735690698195776552868483504084535261257529290738846209839292906073884553631233745361459378030434108876554736005198060832372106468784957926743485),
  (23734242500, 78934890954612693470613957041, 5350809996408544687622825308082895087015743887409645639584731806125238863052127868412130097043862109407232412151737221849110496401127306173723301286),
  (23898925662, 78932859848333113575548082861, 5510812839849605345121157759845232930265987922625785895932487172789506826672856292966188684373029043123466991995100995233397994900918898484890734912),
  (24064751500, 78930814701761194502592533298, 5675569350322224289263520740166886779677712309048797620991004015533131750863921179364383740911900216713333210072793562808964367398670310811355493619),
  (24231727942, 78928755418218007904626879984, 5845984511668840998722594749098963611065976123799646068588966112442907096718074206637001122515353152623271806253010660450859644333115769949407064917),
  (24399862972, 78926681900351781782389174115, 6020688176785347732453184445418530089961191763980221441205574312792907749373517206777530048525178568967945093363234165390327470082327367267462097938),
  (24569164629, 78924594050150498513291548622, 6199780209962207932777407498826178596280987885656656471294681339661189761983049514202248535819541806478895959883200773995057244704448910488013399989),
  (24739641008, 78922491768929830700923561959, 6383362711881205894300074505314937990881476836581562625244646651604632929909536730781613409346240111962700935948455874159998347028670467220822708899),
  (24911300260, 78920374957333413383303272437, 6571540049316757923551825696322890158505722071536818105630399159721484964529357385486223208414831405441263851126294840217591011163493737810548321100),
  (25084150592, 78918243515333119370166236960, 6764418941811953234031864019313918219746870454071754950992368607305516730867663118673057376591432381879586821167279173086031359926766973184658905302),
  (25258200269, 78916097342204676458708190192, 6962806582113798662451458512969948386083053871407910054179873591183673321831091676846608246157087407135536651352142395769581506137094482064066986654),
  (25433457613, 78913936336540282797772772637, 7168001609491267342044500071730253970655056612180463588165733420143484148416516681114316186315889083314855637938106658971944027248849300090065841572),
  (25609931002, 78911760396261223501224552841, 7378322734453685274722485272271995480793208415236641798949688916202662473652667261768209795858036349098040480367788153292978741937016265760283666661),
  (25787628875, 78909569418556510771374373110, 7593888943143586955870535254516446621234531920030685199005953421702299519085984792848909641399646727537899988902885832900682879712514128013633135006),
  (25966559729, 78907363299920171848827883852, 7814821773894813630202788471017546715740852663917217283968828591356618258714882228025767413323830972715884282095700558185917528750055675468562582438),
  (26146732118, 78905141936163876348473982983, 8041245495709303548146107457605710773231459072088385276948138333534937409235135715195937053122100677047542196865272200859531165882121774812937995206),
  (26328154656, 78902905222380250599310084044, 8273287240425607524617856812473866667309930782176417435629083348919768343606094762944309233258020584664939458961019270107842656696942819443215298972),
  (26510836019, 78900653052918529958195487517, 8512563838297737979501703357171148929671314621368524199803676982302093434299486991416232375973103204933719764775547727679271892793247923719812808582),
  (26694784940, 78898385321446514038619544483, 8759005190724450264737109573450596856491107214852026216285468007445329342497729233531405524222394415012706936326353890333795396983527512301561145448),
  (26880010215, 78896101920876912222319721210, 9011559235004403284784485097664125528918470002401521454047457824131300566117702186757093476526789337081867688984591862859447024028684693962245653014),
  (27066520700, 78893802743404650025806568119, 9270367250041674865242046317798035097463611393191928525277438517054802006699799712490524777810697115091266037638686565233889145286700839875397018157),
  (27254325312, 78891487680494865543901958229, 9535573736539387154384898418617315119398028589390331118791786260746215667617427836342398737765611460184063146124071187868790255259008946646994879852),
  (27443433032, 78889156622846258909059173103, 9807326341471045609752337355815818315029300096823870105055773080810364473747112917220651269310547016701894591947062993234010382895459434871834103379),
  (27633852900, 78886809460453060628341834925, 10085776019901716419164750313088750694308737055173349578922468795420680139575147339341673033499773708280383715394937922082433256817915029796635078593),
  (27825594022, 78884446082519084419776950641, 10371077089537409844648547017539283500521271444933456168416305656019740566992027241234506605792224719126055988730930164918449067095779600633081679386),
  (28018665564, 78882066377532028623346301945, 10665091867046931235859974903051212620273048924698518275884187899815858295120536776846529878379899951863188496234575554681389444344707909902389244305),
  (28213076759, 78879670233177543868603303215, 10967688281980053607854374077049811717370688115744424776056097917347311628828632990635057470789962980863852010050822452510202658500427793124298982758),
  (28408836901, 78877257536413539876745760906, 11277728101484866105266649106687828492741943064598846764611095048223290490884629923639154116848721778727291346912491190570896584250144892874521852137),
  (28605955351, 78874828173396592475853971879, 11595382690699959330824382335113006967467498894758607661266852023167892570012623388796796250046636387664641528717482716959512119087922920806901239345),
  (28804441533, 78872382029531606458353289884, 11920827191951708439833935464676231442632762190940455798084441397900708457449677563346422449853929089594791410957866102697216564235761431575953147982),
  (29004304938, 78869918989422886063743023627, 12254240639371749198504897527511548246643488422549820884137477663060770373327944153089271681324239278718988105424253983122994581916026770039998711342),
  (29205555121, 78867438936911480164862643095, 12595806039213745861622979119598798134091417338216695028039083346510180338467779019637679077190341615204672388555068176037296079757619080855227839077),
  (29408201705, 78864941755026266242186804865, 12945710492485016965799920970502454995937118109351430663122742851797668854416311876719624947690157539983650698294410511456829145667175126313715677604),
  (29612254379, 78862427326008981574597143367, 13304145218391915341279297146525945249856222428058193747884869008087828776373578014576337232449717992289866187131350893459030729942215129353240974448),
  (29817722900, 78859895531289966712834381839, 13672983316737857818129440012929753892813026716412933894585440152765633549681836451176073070922584089502788734222237297176165585532453036990401494583),
  (30024617090, 78857346251525525459956926896, 14052359684570682713633346228140603525534341471779271959019313484776772264126322096347049200637139463332737677315454175282492050880078027759508610098),
  (30232946844, 78854779366499750530044799631, 14440980054350380179365988358664432074327178796708128615846514271727888826776919158746258890079596956610456035524266916961539453690582034180888345088),
  (30442722120, 78852194755248144857604290635, 14839056147814693660875068848209046266093707873137367612469104155264141792521852081554544741536230214282727206504427903936702604451605834858273172098),
  (30653952950, 78849592295922498128854243840, 15246804489855507040357051455220908065208912661639912458856981103124601796717877484437998491221470237785788065050298308242091704392272533978253825027),
  (30866649433, 78846971865877551915298569214, 15664446217057155895028404320264920767581515022366003562257607443351154096908166765607579409876250092443777221061297018537356350904278447754637609103),
  (31080821738, 78844333341634458199186470860, 16092207503664448534930576495357992199282346659139507660584335363325487883614970120831093917753675399202732601725992824337564670164978662532203748362),
  (31296480106, 78841676598856569110722620858, 16530319493721886738448938697764834862592102399645981176420542899433233785106514886721628250782894163593774825974761251774136216776380326731213212676),
  (31513634848, 78839001512374510957762709912, 16979018402019386034896634782973964119516209281651869364874906780937453893307468364178632330483419807844695821457401016553171815963791208996551398159),
  (31732296347, 78836307956161985546364647405, 17438545662802555746510942625506478083142642361971987707892245399942588960978812282242704515048775359754371652994716541969475619895512431255213480750),
  (31952475057, 78833595803348534829332043371, 17909148080817930549420065812020903418114490136661653575530767557487004394964320143736306078605839030056600966136982731398126966391798807487379661024),
  (32174181506, 78830864926183038833438456975, 18391773595383900399761275257975335485923088142064159609204460830211604561050057474189119465801304425457701261053360352162668332541509840809310085968),
  (32397426295, 78828115196046494026248709056, 18887751705107171385196376644511316218522119093858722866759325382325420477709911272706205432045305791607587320940149031820757733446645076999912061250),
  (32622220097, 78825346483464794403042213397, 19395664201347287991157785695316093780068859361578819916145899612974081003531463817544395562755727680073864450482757912220612168191407000142168076646),
  (32848573660, 78822558658072251182718843393, 19915782717532830663236929324697813851981162768815280581854932270077738526167899395835687553947432000408695122069979222060336332233750221981552069783),
  (33076497807, 78819751588612072484138538496, 20448384837074116409505772488992739977950804548625789687745814553251397273884043017764697369064663571399370582103417774333114997813928320097449411311),
  (33306003436, 78816925142936848515656301297, 20993754217573793125381893490315556357512088518199847970858600427126674876268788220656355421251414160859224685261013939442352428380236936662938134534),
  (33537101520, 78814079188009042330305846382, 21552180763941022023507919514302767771135288269726224444234643584869227429677820698645722922679041040317235840301045833680954995234010027164314129605),
  (33769803108, 78811213589889171947298213785, 22123960858604632051024366380800474293067856452545963575875254815119590925056111517943165104670054490707996421938828360645780252001774881737263229070),
  (34004119327, 78808328213711687048841002809, 22709397317764655638892844597489925956819187383069146023581101557197234696242927360599577941034483370415262830891113673819373877455930745817411125045),
  (34240061379, 78805422923722423632732736830, 23308799713229670382276681761732663066369414912369242454916909030846566182373551369959052381030726295898515883734354469624461253141451444570536157093),
  (34477640547, 78802497583205240345436572578, 23922484384887085221696133390532162723552222344146311153006073015918429229228917047616427788784792291243403700124414803949175040821752491484703830066),
  (34716868189, 78799552054556426378523314421, 24550774519261403832972032465134197522253882971262298585983430515632545019581336310098761469773760531163427787647365352431181543851946049310190700722),
  (34957755743, 78796586199223667224640447416, 25194000610357533456712893985569301585770560839538149808406450078301153473919961884906742257236355911848790234635414662031476640042927525649699923152),
  (35200314727, 78793599877706587878342182154, 25852500365573761717996857554520321370998117575829675496950372566418356384560860211609884924032872052092532734473499289548707737075721107392750147387),
  (35444556739, 78790592949557302280149415510, 26526618801844969692938346622567043973460336433082398958831054619708397000451666343316141454417532346272295930196157887719982211469596219395399850711),
  (35690493456, 78787565273393279620280199036, 27216708612217302772185339304255054911061890318772392305024225754810823621470190098333575612563962578625712647929460482196997363759620754382149289654),
  (35938136638, 78784516706848663743014822363, 27923130177189453992073607840685330358746700458763739078961893345394276722448608292418278526812591477812057661722620032909749514268487843607324188636),
  (36187498124, 78781447106624087244115678910, 28646251773487403311802040117028203300574113433113743134441894892901918476907497598687818992355271844662604771414466903016345264334691576823871903543),
  (36438589837, 78778356328425698545670500226, 29386449986053049771145906621317105142724437852339149141722558946730939136000143562830191760399586556179736879317084651563088439784231492581257351494),
  (36691423784, 78775244226965753213244752134, 30144109307973546090383992674356469328744909839336608897530437383011036075106734691888610713306275484202548011829266301040107218511035600930626195391),
  (36946012051, 78772110656024752791328037996, 30919622938090834026979944515823036503938772491195836333980033059015460565707311463914293764454371752103745025277796299735689207545488347301502763761),
  (37202366814, 78768955468316653331868389356, 31713392580684057110750290199648591099811440455153706555218255063497290918454740201342708583681829583235625745263439736740491146263923117907114677446),
  (37460500327, 78765778515637177883588213059, 32525828653665032448273498089653721212295010211011817535936544526961391223966140918642154218057930010165139340022765884541520828846200509970595382603),
  (37720424934, 78762579648716740628866579742, 33357350752413454568169412857959116353230546300886954455227248810908170075952783973774028483674092514151568934319642319847483093615358271825778747033),
  (37982153061, 78759358717319537011037157137, 34208387579489761923079411182813262163593564811192010014327865736340337929568666955863182668842477115695153944597817615228141104068796169127750746209),
  (38245697224, 78756115570145726694481724923, 35079377285133533208408057805579460370808853902184322611674409512909925477981272120057109169348610622002848028261378377365002791049251837549180032549),
  (38511070023, 78752850054905919973407384598, 35970767320725224364116960815687696818259344134293824128222885951052877019910829972512682197249556462539736038161853168857485514587667965423177052922),
  (38778284145, 78749562018284911699601356407, 36883015312212462431485493861790480696724395672846938746475284544104382503326605177488943743271199931418066726295638115809848156590252707925533068298),
  (39047352368, 78746251305893127759504088490, 37816588824503098956757341241136518621829148207039200468558609951363524922358986916954613036312191146745632805452709709117260926224413981317594081869),
  (39318287557, 78742917762316520267701433284, 38771965272595608949394743508885634048121926597233039658743586622232544564582669345376017113803168859704825701127696798428042595171303853783939050621),
  (39591102664, 78739561231117245802756263415, 39749632904155645129087510830977716808412194545340497145989447637043821374676778509503828645320693428010302510444890052248744428436783661546426706325),
  (39865810735, 78736181554748233657629590227, 40750090633737556618524885269814079593074667336909196487656944041114722779653663865115915886913510471394141872346151082608418978595892161420821295984),
  (40142424904, 78732778574627710163869669285, 41773848027730816076477774893129009613961797370494226122672912690591221283585309750463930936526538468753190457272405935226814710040531092315253272813),
  (40420958397, 78729352131090697372032944778, 42821425984783697911630243139367083328797918632528332975759970470041646768372107366250945242494745079704072752344135566153412411428543437850480712957),
  (40701424532, 78725902063389736348208189542, 43893356523652145046679774502507466414451461683329203315360654983927550499830770228512680484100342151838305896672474332148990105581164340756225298593),
  (40983836717, 78722428209720219516209623974, 44990183552732958349688390005165757798652457716056632584740163813533109132574434739801181427675273103034601982394079376401695452047049674996222290689),
  (41268208457, 78718930407135026310667189737, 46112462758772167233681061476916379652225421164776425694978302354895532639154168239708743839348317528858659237174148847409969399765688392769541002054),
  (41554553347, 78715408491631380229694916931, 47260761830961215711770206573458085606312808797363975852563319895602240422312383910053446915653104403882568703175632816669406699904522636349707170228),
  (41842885079, 78711862298065509223613809324, 48435660980339618553606960501317913253654990183404471027253823973604828722548480933388722166026718767636526430685992168549342872109918398438257954055),
  (42133217438, 78708291660202617882274564576, 49637753033771733022849404131008156656131261211022950656715405173333929896565504020836487838060656137708152015396253685299204262114222401114621413124),
  (42425564307, 78704696410656176633101002403, 50863287508727110999729140340907096690959610019565054552734029721091036548042575047951418762876812084206113502378929845912363981478002910208479236638),
  (42719939663, 78701076380937910121964507658, 52110283953793170438600933373284145920796380621469924332792899467232212773760893087510714895430368230937252647368151614335145210845811207468634897177),
  (43016357581, 78697431401409409335990304796, 53385936888185717634466608402464148209146260250500061657790924504426548269041914121246074352299605794828415790325961045552622337167890405942715733396),
  (43314832233, 78693761301295246041965568630, 54690882223734377749418154396941244111147884626547597610022484525906392880182693215841094630953184442736589540507556198138157089761715274369106145593),
  (43615377892, 78690065908634616519304867279, 56025769302087680137859956304779451744049276634810379475385861221835365443975607576836930322410781136805953357666521279212390480112996274333752241972),
  (43918008925, 78686345050368250803524073807, 57391261887283613055452057435419552416597912698679354642479919729664678259303690047746560725218206374777282686515979808453076525368587271805256726693),
  (44222739805, 78682598552191718109015649302, 58788038051923587701903096887915985049255345690808177657002502862672518862648221102426934807624837519906295052690181244299933903590079214475962695792),
  (44529585099, 78678826238703829687773828735, 60216790433376844875637816293990340917400291550515585602187743543588224347480718424555511535714497200336844601187110208359019492655089548491876067575),
  (44838559480, 78675027933259977818723840630, 61678227070843192434692284312728751260853072180811341904624937882806836809871698211405517256427490738018473809121312582951705542913782689672288724421),
  (45149677720, 78671203458059082536329945389, 63173071023649806321962847021886309831039352669116896257926306422497944621225471996330749677319294817961469039856609772440958341801283923280947001459),
  (45462954695, 78667352634083022209010176668, 64702061199312478273038821582195568084940266120430489315215249800150394589969394055475555791244585320853257259857189570068955403994862401154628655865),
  (45778405383, 78663475281122130540136435307, 66258894360240339896467574026979856217227040667757762453164239033874541408542214115140734675206428445360933177727909022133020000074303611014081016532),
  (46096044868, 78659571217726953378634375982, 67844861562556990153680958863849786050004563446719975506462488571267482684298059998404940508373853800580822156526418341597269405421917887856781327232),
  (46415888336, 78655640261258350271533514113, 69466816694979388495621701593497927351829733746180565712515259866733460472431486749815928031475954314212306420718210403508057732803926093307889147000),
  (46737951079, 78651682227839277372957586998, 71125552694601663561492560711373985646902787345813292232264051962542394887740367479420712279139747354868328348231824872908925353622607011184736186699),
  (47062248498, 78647696932318884648990003385, 72821879179927562310837970848050586357072592253000547429822123931505052781134128554558060410908074539520535176166808864229202828516196866692437754220),
  (47388796097, 78643684188347228053636587820, 74556623092199871673387996767875359727618916932380706327804560147896147875682157162012089691043967371283038829815510995920667196205555798140888728716),
  (47717609489, 78639643808302520947541657256, 76330629767566576613072583288495973075634196901530977820621427357832620690873626032526671598319508305531967624395295248806845902560635462320455777342),
  (48048704396, 78635575603292140270312115102, 78144762653190676330215962758297607583013774580406922101732436046335211291052205469710474778970257494222246826411485877976694617377818580146505176544),
  (48382096649, 78631479383153644226148752926, 79999903560220031429519315903390356226114983499927702519620673561473041127454958141841437377110063380239954271160258825699228799359722685207825244025),
  (48717802187, 78627354956468087115383926563, 81896953758916882315371582210211524525031229364935590607568826945357225282993089909230744930862769489094345446018425707893243657181681896478987111553),
  (49055837063, 78623202130487347876165642482, 83828869137999587472222857139070687148243623785740191392502261901060127093104047534578927705389283240403954392996510181217862037774170034324474736467),
  (49396217438, 78619020711208904583917711832, 85793560152379355404702165877595459645191577588956033023494284293879079383479097871628037542353178264304914071508129028750574271293229083143932580818),
  (49738959587, 78614810503303194786306136762, 87802323184425058488664745678736177522126146342286701376216791355663951841611191753050285070484008587126297989709062793864873377184346611277055207047),
  (50084079898, 78610571310126991992471833245, 89856122060779568870177933372671976180615708009765062052652809272121202748051351061958480802504024430704393503997474490081351326239263298587980027939),
  (50431594871, 78606302933736790678140109486, 91955941674632141140309369237739459040984384212302230722860763009074248361286762847451529043735566224944745479041517298876368589821455711415437458185),
  (50781521123, 78602005174828510448181782358, 94102788068624786269699802536761881276314739072057640651252164765447565502095263904467471629605373311640817576763364878338659502736434259093798014668),
  (51133875384, 78597677832787761082626286214, 96297688723303896241096931274361998208062501672577382525461291555888693766119936944546147694338617345627848230445196978397044854485811357157724054584),
  (51488674501, 78593320705641862673266349262, 98541693567198514915471715029031667734365219081296296047032675678805229975702225568817124872545597992747559366808889692405339846328827774636176963159),
  (51845935438, 78588933590061013218322866205, 100835875188958161146092876218378604114423669576552994731598607657496293576860106646663381532590301581945156200332047201810989725527249991877464863580),
  (52205675278, 78584516281334911881325344364, 103181328899098557254600419075339926957013630210699953379011146369950401530990934299295329209907206689573443624789330322877370759362327383471397630767),
  (52567911220, 78580068573410794718389695905, 105554974037673410160430938183184241759535649286506689245054427673689374419374667953365112652483755238464960906524892030457130783717405965431432110048),
  (52932660583, 78575590258845529477807853224, 107981010740986651984574000905701051102016674053756778287916368983013807217247980674860609466564457791121390127414019487864787437022098426579918379996),
  (53299940808, 78571081128782294403089379530, 110460872425360411136473890952012131243940412402671152937147925874167712172903856005418773453103458160489764026240660144662037337794387384765521916964),
  (53669769455, 78566540972988659707107219734, 112995728574803977043723720648608801566686311070934436468723880173905496332690590935726623005103271468262709345491195537077450212071818693671828851783),
  (54042164207, 78561969579808743360886772293, 115586773811793214653671603634978576433947283410513248981737389759991451528214201683193353604781924571386281400340031548786234278335959474663349612897),
  (54417142868, 78557366736189045913587001201, 118235228733543038970748827015724144022280630382792604082029878770281759878344774886973967529623932907661746311653169669125044258676908229289471229000),
  (54794723369, 78552732227606100375301109200, 120942339711103640156281955358271088260849189631603724351901481186817835337440957215216222086679551484665086608129657064920126645851792053484219347448),
  (55174923761, 78548065838153713762626422304, 123709379696223960865795646593942398464429738768997972961967563122716377875429409521936369160443169189795853725448322618923627920564844422720841101269),
  (55557762223, 78543367350446107035837953489, 126533896288396953822311186031305632365332415162113352995694665816492830758283959257242329349928332139326373610016707200379365757509582840749274255431),
  (55943257061, 78538636545631550330849826928, 129393955563229340341316716664713468942620593331957560888270557054787277822119482284828978493738065772345295364018789377897395684953854944907293819836),
  (56331426706, 78533873203418280245524968956, 132316857266260619310966715869969901953113810377146759009382582715819699779877043435420075291736379472527557726556539604305684447041871303183414870562),
  (56722289716, 78529077102051343132201139847, 135303959302392064147081044692229715764422695751915927754133413606436200908449481041294913655669236992817996064274252104111531143577875768264761993525),
  (57115864781, 78524248018252654867236398374, 138356648321837766343425284737805260265174346787459746690490792370828216583978117463169339257199688799052573926958893113880762336472427161748061979089),
  (57512170718, 78519385727283785916820595715, 141476340279671612186104096589979284064783973221314192674004037636170307003367532512220275656699378827719129693188159731398142346763605166533634455606),
  (57911226476, 78514490002886061067313419457, 144664481782359936987479133539630565768461440779677742352469040135275886661813655491131569245949817804801751067647149092881785367836839454854353564199),
  (58313051135, 78509560617294301239637478418, 147922550014086253869018858592714748931771696587105024287188480915687216026382701786463213335103169801148617711638886965963942552779253997150462896177),
  (58717663907, 78504597341226044775328531418, 151252053924001905772890634891448307549835928366960314724213922687335204687692171728871258195586896272597410216640698525552303339859823576727396153030),
  (59125084138, 78499599943858524733514136840, 154624844188993886284956662425177484794379535608970046198389206792902878302238462062706220778487713590603868309408322431567058391353950898539857479517),
  (59535331308, 78494568192830202300464661828, 158062266082296833441298648874002500286353450960506820001668240212331598166378664955783968972474289472097230332413205486909969330590262514505861431105),
  (59948425031, 78489501854242317645553467160, 161574473461375057210784426178843161034621234927400109956522033091295918848787776685615102363064219237022144105903663299494887191307275699919134566099),
  (60364385060, 78484400692599142447893217034, 165163071946346046681873737759999597498789292518183922856296070825494212340336881923127762880129276577332846653253350841056031577691219158366476064868),
  (60783231282, 78479264470870898121733949424, 168829701143570862693177068190268599708223663692668067263563026955325345636925161889709397436788558223048485741947553340706132512241975797389267781229),
  (61204983724, 78474092950421790802970516345, 172576035994519552114813463929829297968226450565724207327729945971857465747183573381821540604090257707669825181741133015631079934126886653531830749813),
  (61629662551, 78468885891036179837868321347, 176403786491683033833067939478034898773951714518322580874202170680301571779212343915501990099062598103754279340984389043997535632265525622712474056941),
  (62057288067, 78463643050907975383266204166, 180314699855841935997246989639758555489871077952827789632948345748338110213633690220131720323916963711400339096316896438648729942272401085390458669853),
  (62487880720, 78458364186581023258817667664, 184302039115142795195681855647707509634758454697136775972740277209291913635982425818386949028108577146717025377733155181935100441148788978832849656599),
  (62921461096, 78453049053024374931170165346, 188336450929372100909359702253924295201995170254028866902689848503284651617447893586303764974684415660594439305691392869989952756173925691656510323523)]

end TNS.Data
