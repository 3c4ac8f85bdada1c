/-
Generated by scripts/gen_xs.py: for the energies of the grid (energy in 1e-9 keV, rounded
down; exp(-energy / 6400 keV) in units of 2^-96; weights of the three reactions).
-/

set_option autoImplicit false
set_option maxRecDepth 100000

namespace TNS.Data

def xsRows3 : List (Nat × Nat × Nat) := [
  (63358049926, 78447697403548200152692127756, 192457812752585308595013771865401016489745694390408277448738731305279255945765242022082058494640630620394289873986544012583657086140695810741119058324),
  (63797668086, 78442308989805550546675234536, 196667979756416804951189404657680051739171969312441457555024289475283185142345589243155400801976605109016950263634020955604453861171343490835737820987),
  (64240336593, 78436883561843166338101570276, 200968847316872906568112176703910718258543930533607277320159002770083592405705559271450327623381829577060376313882447225091629282316753421219489421174),
  (64686076615, 78431420867980714146640967218, 205362350819441614363278690941895092970067649679982279365301967504064592027015655925687155954214796317276061808921355668053603012160162257823657586311),
  (65134909462, 78425920654922923413079896459, 209850466189061554605382851674478914542526277608282816469758051421465297513751273313058227118197388916963508804452446569181293878050527754860962321253),
  (65586856595, 78420382667651139958830437083, 214435212190364053820676767857118204738070989707078197451346520674945659361867442137320813963851135435820650965221293692151897374392968999082653294141),
  (66041939623, 78414806649461974938287065904, 219114668847397563740984111073814430187194710008724144147030990818264142601286800677465556780658921611199875248736690057176125381214038549972718657978),
  (66500180304, 78409192341956953833449023736, 223840941543654248422808653583764281910406961693562178937573174058359040541428150202364597832723016486592748018237091866017333095793765303634922669874),
  (66961600548, 78403539485007691149836750602, 228668138962075193724494532713701571193713896833565113212703738324650137470066618935287782431952071415284866561599841737992078460243501804929235875553),
  (67426222417, 78397847816757851908242756651, 233598402414249031747025288303417952965702365092599369462978839199703006879349726277374451369556662423682966668502812805219772295094853714133659680555),
  (67894068126, 78392117073612886640421490593, 238633918678494332859813330518031448272844422095753688133180465601579518519499011842838846309506343664436286770282444186323420377522875986700225032545),
  (68365160045, 78386346990217546405877863189, 243776919941236732546001925616523224884028861039577729837668313591242611943201079326658365871015170119197861042939681392357387286896147605502242851110),
  (68839520696, 78380537299494666275110407904, 249029686247683240454105117657348163185749359913482843996808186257048591769895550224121768490080524995989150704436298270873168216359852983797733965184),
  (69317172761, 78374687732549249041833186837, 254394546330477099234147008329359276366992393008185657670864987971917342094577187852304943410715727839313893989746267885603622705192898088282980986115),
  (69798139078, 78368798018719557711629913245, 259873877003326429437108949631229867622520249740571373995776606796523524816193392646619456844422596374693265201681581613935651501939996924450771615034),
  (70282442643, 78362867885554744640037295817, 265391169056503434393838903235044715446364085788402650348888489498931982030865960038334545550490842671829186466912086805595220367384393239294775865037),
  (70770106611, 78356897058804759049746454849, 271000879597982571537689637869960439835798968014757470856462507894874274451850650272081164309886612893630338234882752483798754133107371055452646259870),
  (71261154301, 78350885262361315210637479577, 276728827000790268684966562176740299095209866229105022769291738640520161590065784710273980605806329475991634246818388226275475201145294411139862938036),
  (71755609189, 78344832218345810204243428610, 282577498188540722934430351051973491086465123430495858246457159079626722084755230472825346966184116587405862777362069460691771519237666783836884545636),
  (72253494917, 78338737647001380211933260794, 288549433717236020129186837911058301621833471535864466039742754927889788868894183781249977418818773957386713865735789293211069862319065106285775018216),
  (72754835291, 78332601266719667650179929222, 294647226596926254328946002161372137922224045980555300986309903433340587599952955549650305742872205270208914412926600427324414921035268924566236315696),
  (73259654282, 78326422794030887237282480256, 300873523637411736913871166826896455878965153251088355164228307065901604424716911611882615568042671702258947273040291148637591532887016062036748494628),
  (73767976025, 78320201943618399024579069191, 307231028026953856719170205839931109901593226120701136629914028893841965432239407495997060483342116476087500024317170506171163170724638887699207203098),
  (74279824825, 78313938428247646094256671132, 313722500591094680254051768239973957163026066353548402979529866665491747719745116552022846258218671318158064125906606177919752185220535775261054040106),
  (74795225156, 78307631958780803254029972205, 320350758542952441686799186949841979706078506587450202716257159309843066050437295751493104012814253425882057672052520293587395081627232417504126976683),
  (75314201659, 78301282244203681755143433101, 327118679065761301342868812534282375854299812248276574085005070389431004711764947504176203538631702011014299840645512889939341201132669168965879594227),
  (75836779149, 78294888991542547387287577116, 334029200339408214074319562995919903766111771465040059809121587340194642123994827472856396388671970173241663852754694632078795735949805809594174609982),
  (76362982612, 78288451905903334122393191585, 341085321190005961311630100886320284638356724227578638394603156732845150501295641689826267398635324483533210721774982639014348886684534512591893686438),
  (76892837207, 78281970690449710314947694149, 348290103948591702664287781859783514554696162508292890837397809077722476123082774473452706989759170227011254075650007738579193459576157105914277262809),
  (77426368268, 78275445046381185663995937331, 355646675147229990689554820029017189083742075558008771331339039304091362425459761645797108001004379345234568912832644975283094694425611288071509823459),
  (77963601304, 78268874672935718514224298563, 363092642823867832475058202255770739323251149256951659019246806231217042132964293870366463351653013002182203712772356176919982425680283402211439400015),
  (78504562002, 78262259267355667195677465249, 370619674691582473760480233519365517840973371372618767635698161382629882797715429012689778422134457218730000107697635690567907522010296310792791523244),
  (79049276226, 78255598524902699588641318726, 378303314157032466312045366391722635265766426635996114745831711154859665217639334082126787338412716765851750882903532603617912237186114743740555148394),
  (79597770023, 78248892138787142010787703044, 386146826875230794344421282912369482143447855625542088907296568932362901320373129541456808877655244058950392994043331757620614909846108511652905984408),
  (80150069615, 78242139800268551272769745437, 394153547179230880374983351085877475247847659275728975299085912032483970175623142279631934687591493365642643496849579744228767540405531829830643241034),
  (80706201411, 78235341198511781737382810646, 402326879998352817431546361499615765181217984308533053145084620140697387181493388115856100060379061795583628444572194689427401569089343445175493972221),
  (81266192000, 78228496020675401085363007434, 410670300463873342951029918733030021286993330512917197645305884925186237737110714899385362177493176681160852954461148328184465071795882980190823794288),
  (81830068158, 78221603951828983540647208345, 419187356865109377217783295915955561194743547447873927526723112982192997069661445417465079235802018522371892209671248575480424349515133450473663250052),
  (82397856845, 78214664674992691020925829156, 427843238989512078538902009573926129033369730482383476599286328434168954022960623871715864195659607843797864742653868994098007328271222288214335274267),
  (82969585208, 78207677871103547981715895082, 436599380310635588214545774106571770270826584314049329047835474802111752970453567961363703674506529751833314907767914336401743933361280696850655635094),
  (83545280583, 78200643218993987904652029024, 445536108176524092338928221013879459922123152579321967096525206857915616460656700181996791321707539932372959108370228801296462032584339928505615403268),
  (84124970497, 78193560395370446713205518681, 454657166115687579977382892422150882205827244028853847080859338114896106239141078111761086890975918450066148421438439626544920543546986550342584365856),
  (84708682665, 78186429074853086888434842620, 463966376037469822085686885933143504166873874005198976027631502689716372454186612476256668260700848250484065601923310706210316869535374317762089783000),
  (85296444997, 78179248929893381035966119503, 473467639943446896767697940633040354227291466261869013603891641841321716748414391578744276004989182092127649167239372651456220866091868534280422015545),
  (85888285595, 78172019630813921369349058259, 483164940349354793245946257230575454275273817530986510135274518258330701713700093402044847830523972486936714332070117846783362159013786392491941295475),
  (86484232757, 78164740845762751855339027647, 493062342778489468060827908102593435058589296809176926179381320383320979501312566402878443076528722093582541622220264173978033893427421002810148415006),
  (87084314976, 78157412240728824116225344242, 503147483106440564695548664495836885454973873696172531901718267879571215103641179258320061254245826304824554773800144579767904738469581387027799209249),
  (87688560945, 78150033479484217349115095768, 513321248198291680201559294717942208566020263166860418352680635999857808855522082453709538207176124169724451031113776374349476637593258499940259985627),
  (88296999554, 78142604223624108131105386394, 523703074418606782934744795619516212433857907057816679928012056728308292869011962379279840549636098917963456515391064806506095750205732289736333124263),
  (88909659895, 78135124132509088016571748819, 534297250063238581645108720805188871319101837602724820878174905463239365903642143928906258587995637325997601043200914938466543210621131453413821762127),
  (89526571259, 78127592863305213648045861383, 545108153669341681304769144116168081732070062882773484033573784193092163624287764894908541628447998250756491456896322182666486258559801749138963588489),
  (90147763145, 78120010070877599185798902399, 556140253804518010238857907974063021551112499351551408545678537869925154970835352973694380555920325878776312213893261835323377675461956938404639697304),
  (90773265252, 78112375407891597803565033731, 567398110333947827477587263460526552854351259236191888885507658964916580598223459112315300304523683515543283586479355202053413989656353511981416929873),
  (91403107487, 78104688524718703912532664198, 578886380451168320089810177504509013491116386756192034367370724935084614032261723441394172874214363325153098031114405264584233243010928071694412305584),
  (92037319966, 78096949069427971452102125041, 590528934525156081985201919345460354301438066308759832904758519600508365028635433503612149619342168414693677934045781432309699805138392753995228388352),
  (92675933011, 78089156687826286037971426740, 602260874247434902993022714046099006048777457083472537379593491498851036693390870383323984385407570721009410081875944149685742584966477253501389310701),
  (93318977157, 78081311023376654321016592450, 614229728404980932175832607881916421170947710707638925899009940040078976534137515664199324274332203045141968427299321617898510631614890459317386129274),
  (93966483149, 78073411717238576214450587261, 626440337521151300990133632896379697440007234934410051472226163233444898498114188211352405827016477863460506071387339080153263226596566534144384339969),
  (94618481947, 78065458408210855509877864520, 638897641877504016178421364786248862626093289084873373899208641940255743544067104176446268668581650460144887349467714111036312021365708916879681095084),
  (95275004724, 78057450732759865951555634398, 651606683033769683518162700200440852000010934464303860857953014345032828843859729780157362718707615873962461316054019937318128855265531295370011071135),
  (95936082870, 78049388324974674502215857554, 664572608430519826962868585890193174542307975025642402891411818730868913564400453349155941853311140159413434676011714522717970757875709879520695728244),
  (96601747995, 78041270816534432745261613546, 677800669113505342835829164498707930728508779830289986123571030676769926691748375315058192655399832138077946820483731574850445138845927836405384271098),
  (97272031924, 78033097836773377306317634581, 691296224758627425015398389122998114818667361286864521931191169739295278659644037248900721891076253949006446856375410067615814704127953016308681814722),
  (97946966706, 78024869012575157757963339327, 705064748112386978275210112843751328006460200821378839222377427271365581067430125817732192815551511414301320814951674768339172393688345477989333926101),
  (98626584613, 78016583968389180551745417044, 719111821077331349353362199680558181049756648711168607073314086662745869589000739971945468254681865671113711187180849837413889725457683891894465811651),
  (99310918137, 78008242326271369512944558933, 733443142613586400597121511773736775093245497501406049060070653576722765614268235502195282929302720811290858225491145339660184736282049940430671915768),
  (100000000000, 77999843705766512629910417552, 748064529194880680552640675299024634876483299687573550514167187367684883401045128110745500700909149924284378811481033655254926877103736701349429113808),
  (100693863147, 77991387723997899861366095900, 762981916564667147857806181240921327444097130166853488809602027228464486096965506395523477072374088369558923669083694743481225332104465631584257992469),
  (101392540755, 77982873995561996780809183854, 778201364492587840981369841952656989349290070224143169684153820134098249417274127063096664664420259738902050935044828171962658658116134200185537343333),
  (102096066230, 77974302132569440745978243368, 793691913233927720441991252281559868326374619386548593707752710741946636527272667623739724495192090722985516122707857313409826540705775967542075498264),
  (102804473209, 77965671744625152163519665414, 809223668734416077302922169457110614946416018518659606120188968824608366883395500743370194567531874814677570240731608360373583108572744150945870853533),
  (103517795563, 77956982438796331355271694643, 825065598233663482168314148225388805020392077353509869827504905007001912783357971027746051054098951402536530165065632974800056388682493221449550225793),
  (104236067397, 77948233819617069078965105407, 841223989747366412635511796815898235797687459460629442341839867477368510384098374004272247895144912658777907598656309199526514964775311135359498869642),
  (104959323055, 77939425489032118562174329717, 857705260005287177163134185590020542669502004447711518221040734508094133521568202360889997518212127517315500944706073975659003653184290456598640913995),
  (105687597118, 77930557046425997807405611867, 874515955239871167575802950418494798203776588225979874953962209453520739657449401529390891936458962226412023214887948180037276658187678531849125854064),
  (106420924406, 77921628088603427467042196398, 891662757401941926782279842767227937752171846188905965770259790337113916697599054339485239798672942632147572355844386102686251101371062424152383226731),
  (107159339982, 77912638209745491398463678162, 909152485210793009118564209519468403482670272075899128501274631923063743438667164249629824180772800334008152593878098233940127979563970560607131677969),
  (107902879151, 77903587001426747627570856477, 926992097535137691001030859643225034928178179569379206440970631869359329490274638579268223771404857566805311840246601236331412529946090710567399666312),
  (108651577465, 77894474052559360052187488174, 944979235959260816756844321015271659431081839916845642245723770054917685017867535596503801313573018778192385544710590316062905565567775097627298040914),
  (109405470720, 77885298949434685480781414713, 963287593690049600303936918950146927014322719480847112940543933537604211826667612793250604201155784733566598200659898232412731420791763773832258734059),
  (110164594963, 77876061275643210277632800918, 981958832295788498437201776325815736942926935690277662646355718926649358379279989014202431808324732815765190961947493369333100877055853209203128081686),
  (110928986489, 77866760612116271857799815856, 1001000266679822640848145236626260815515601423993880445010077303782508304545903277536585001367800526944899357962647280919778990466406949935424650378369),
  (111698681846, 77857396537070490647186488113, 1020419362686193438922224484942462850230742443846285732234893100256503457595825932543633489706319267389772851799749055407186254092816412469147458531711),
  (112473717836, 77847968626000959839598656826, 1040223736903379245018739856079101570222135895203992286905010760069329200487327765599987235870353323264825599321540963446963106930306098879782848285211),
  (113254131515, 77838476451686666211529934703, 1060421161684320690844058600499263493581782361871745916978954910974376532108642015647297068833417647780543820354534268544074637088040263500588434330146),
  (114039960197, 77828919584147328445522462435, 1081009193587190125369665399039790166565367045852646323954233743339204131003944655605470660883191429643418658523258823117392553355832147233442464015385),
  (114831241454, 77819297590648969720161014811, 1101738705727369288279222161380202593211321616244999039313983097056761748141716746583153491663425324154152682439332439070490594691429488976575114883745),
  (115628013120, 77809610035660921574112158748, 1122875859051980744972886352987439334482588209812056980973041917201336608894948036964283117406495088952233440617140820920729923653053122693869715791222),
  (116430313292, 77799856480849395863777815485, 1144428821908199515363802344974699525235638754191319189409088273898248780319878505268549259690127148341770784671984090755424121704885634371927891153575),
  (117238180328, 77790036485107594022212748088, 1166405930940263408066684883843909167305056993787097221238193883105003341359904968257341787081211215962695286684925040066686669946506635283732290428842),
  (118051652856, 77780149604452177890073041835, 1188815694016949568653217745649319815795259036241972702908859972224604212967444673279406674313091855404795826718202926217721847555136468290170231020384),
  (118870769771, 77770195392065708653167743659, 1211666787078700581907952759507444041593487097673432827414970792196376232438544735701541435851183847657775780663498224287746705147338912295148746215553),
  (119695570235, 77760173398302674516221342822, 1234968067034091722007574010115722975503029822772913780982354044576768110581377683501547410652876201060449933062170242352558226041930263208042724734074),
  (120526093687, 77750083170574100994248695573, 1258728568994167859176918278091513328324956327371414638370968719677777092972247301770642000353882540902757530727738076313071319687006006646788911215652),
  (121362379834, 77739924253463114559944198137, 1282662630053624178106521951261205034923039501253746483935917088855606637972164714299779050786806869367034904233242246053322766220996228028676418587837),
  (122204468663, 77729696188585439359146795313, 1307030676776476302031859898331957500496936342765827629000259479634189169181594058280177785143473247032399788992000484075245938598038930258092120616971),
  (123052400435, 77719398514668664672461693728, 1331874438132619144670780056896685600586280991648362059643197747527489756961904833448512842381665246781286636259372326923807630818983908828723282581201),
  (123906215694, 77709030767449395181818446904, 1357203398337554315502953988012285536931634190223654641436828938774182514148743811533917336485545371451035240987401455334360473803332403234071288571102),
  (124765955263, 77698592479728385886438373869, 1383027229669892076309295254099259222532618156553364480250304658347497932834912932877420497097447397703643309481476213628470525738704329978772041300057),
  (125631660247, 77688083181340739701886318907, 1409355804274182707762648917449178098671962279192057813640677368946063801452358578509632551722053388227727744031973028504327139695266417943863318083967),
  (126503372039, 77677502399089796903936895289, 1436199194365373012668208116594530740286538341194747311876134390636922978754986698642294223306912380460793465319581704606797521968305990172549853344306),
  (127381132318, 77666849656778242622338754416, 1463567673735576238209572122593715568760744007257482845039648950853529242334617326672248041011266804590351813115269660026311107799576944962704841468412),
  (128264983052, 77656124475178601617851375149, 1491185062589923051639891996384170829590890850059000079210856652296459466868867683788703249995615680143224608988176111554533348089227095134903082477628),
  (129154966501, 77645326372003840001627249735, 1519062845681108719823177257014063427047759462772609006865035962122683139010911184898729895381409572517337780778000782870773849703740876052587217826190),
  (130051125217, 77634454861914466442410740696, 1547477918888661841191532712192129819188783720877882781703475423981316897964232729399956709171461973879504031097677277074248674802648213716112429998727),
  (130953502048, 77623509456477197644142235190, 1576440889407350680872585352788317969514589798511430420500477453081151976133524306583153799221638395131587929678453376379238936096301858251413802805307),
  (131862140139, 77612489664160125660607673189, 1605962577548007793081782334938653264599222347324243345119268994078819788940830331177135198324476537478633677214366159399666961775699493571611618313146),
  (132777082935, 77601394990303726233412056890, 1636054021067812409459565259855795011282752850541312192286502925293494884062964141999284498569400661759080666773328913690510394762742170795673862274275),
  (133698374182, 77590224937116227437447997906, 1666726478645305472961843316814443487253735595488355333577154245613588479034228569404994918292969428781046751958508198652563202530422448168688111618343),
  (134626057929, 77578979003656950351681709947, 1697991437048090585380529963416612053296115024286202178745933635624734457077883887204724243001890936455450298055195352094250656635450539607205081877547),
  (135560178532, 77567656685795515172614537259, 1729860614010991481617577417791744779532341227276304191811169395736372256116190165649498977168488396990584637763075991810783205524346692821122944084183),
  (136500780654, 77556257476219647937564885916, 1762345960995840170224182955088910412151329143553969187560826564780034991003816834090788136989687536712797006262584945573350330392497932058783902543973),
  (137447909267, 77544780864418841175719864111, 1795459672566132378400800425382493028919530244594548258721537998465624614724342551136654968595613245352299998663059690577517320795111902380383762308252),
  (138401609657, 77533226336631779954725788556, 1829214187652829977323173685614440082970997904097873166355133610418380580641126467255169069809152676743336870229047863466940836701845746697273936554409),
  (139361927422, 77521593375878700260120177541, 1863622195334638432101145806143665343732689956257655207649305443067832960730132407096313988436124625864303916888372104446580235549976739163081577430928),
  (140328908478, 77509881461896928320269895846, 1898696641939377815370942642821847580364150423289028989622508467070059306759051377515489071100941196802245776947080387551017172370011277946297076359580),
  (141302599059, 77498090071149231391024743501, 1934450734293038932514177457019126337887242102210597976841308969569449890878995643918338579183561931612901547863717461259873521934519926172794233293901),
  (142283045721, 77486218676783832239297748301, 1970897943026978785717590733867485397634439036075468785217185868664096448731653194079411659183547057279415462037959363937927880635837781279894085895855),
  (143270295340, 77474266748667193964708360983, 2007896551113096267344028860390062648224830078769502890010170577637267850166367374890094353158509205881532357634113440832099350460953763910252057140141),
  (144264395121, 77462233753283739009591031425, 2044791790630935095947618314780444846353513688609688306462301794680904321226715217256565204450498173436622639629036043534317803547195525389659123321212),
  (145265392594, 77450119153793086348947557105, 2082388083323205309942662336104190798380451508060905233364812137854322766112068742807319118851066233583643002847144976256813852564202544420873453911602),
  (146273335620, 77437922409966344154270090170, 2120699116067931069804876108887974869630363168820001529755652074767019663876742752316287510549760397969415847259597997708582254686329699533324987867046),
  (147288272390, 77425642978207253870862082791, 2159738851089785986278319600270220030616487046417292079905312307077140801636647168987176127734593893345130418172053696399520073993774034760507459766519),
  (148310251433, 77413280311464560341163488092, 2199521528513105742257838299358633351868841432019965392466598893357719539360800365400180286285050353019591921959686009439267037900967231891789507078975),
  (149339321612, 77400833859289702572912371868, 2240061668524683502895698703529852322424099535721839015003981632040945180209482399761544109870375506894944786793846956197222338093415611497466666781625),
  (150375532129, 77388303067785733398560628859, 2281374086801828739792158874711272609204869647093469822905747471523314373295360338794485540067813479831341765212239170832454583711092636680521070569872),
  (151418932530, 77375687379556401554341062914, 2323473890756794062205604261411880731109164768769127247705167892664202585181095614272651500314539153299302044875005910407008027912678936198206179141858),
  (152469572701, 77362986233764190168631571899, 2366376490711388342272820507286049047946614007276821880846975842734119358977844703635297973693680160176633523906141816385260967758146018029734543833223),
  (153527502878, 77350199066019210826649007154, 2410097603972568258702630751838375464564956990133261057110695859330017049188714735539690833900118894493756617110716511709686361297730037167886944440189),
  (154592773641, 77337325308461668843408247934, 2454653264212717141848901767271978071473768142496151244340455738780825304894502584939338570810491570299571895108368069959865377965719886257054007216263),
  (155665435927, 77324364389614809089141995287, 2500059823568259220973330882141473246473245694528206172588315294041668075821820192268357124420366538091747648050708469999139865088289347229136087941709),
  (156745541020, 77311315734515968269942658767, 2546333959826753960635547083350192003399725635023030064320249967806486911259411366639507544840555730182571507197480010825715786824750357325695212606686),
  (157833140565, 77298178764557749391840696657, 2593492688012690741631065060548737441528723721335890205547922202462687041941522986139980075046534729461703900337373332949440669852787671289237548262129),
  (158928286562, 77284952897570997704911826056, 2641553358683751575639386003974629057962196227829012676199619396177252074452113496750222397260554686157891675509408606492742246079663926812947307690939),
  (160031031373, 77271637547750860039123155869, 2690533675584861120817890500493883471090146363938284158594619367374143657166294371357137663492723960787090778862144422884242854397551944909270169536645),
  (161141427725, 77258232125631334550351523468, 2739901603200774525058531573773008443007510661255809132986432229386439228467784900911200919670828012346895319601291012134858826057613671921859295378612),
  (162259528707, 77244736038132393882697588523, 2789780440160466455467820482097345508489862322827593733812475679991356938968700375299678766693265815497024555716998118416169164454432804480901864953191),
  (163385387780, 77231148688450314521545781681, 2840599617809331324880127018632153139291363092023927288017295671316485552126667209347311528084699685677691128220562500592333395003332629989633083645433),
  (164519058775, 77217469476093037704205809810, 2892377377644669848239768082288236425750010746083918784060963493459229236454046084655882983097481790878616315487009295395636852411307887252430682526715),
  (165660595894, 77203697796879439026080259669, 2945132330450492991510506480221830036389035828194950842953496345653646560295862337346737208304294865288107681149017960882594461157680431291629238973907),
  (166810053720, 77189833042830187217846569975, 2998883452482344180290164346488021900634500425284047149532856112605308681089389288227815246486140568671113282031299178457968094181613455309676630881366),
  (167967487209, 77175874602275916584046102559, 3053650094969821383113672297060462853776784624335988949205096963969339665867192473228325188987253484193894197946728852284566060847690920680055944509974),
  (169132951702, 77161821859724292282764521064, 3109452002485549444947703810321928012424068872334848327448428293961543532890767101396346624598710511783778897909504872611634635335001135198043567741439),
  (170306502925, 77147674195872014909820652194, 3166309302263419475837380138396797433018662522215133283825931625858577103823513454619469936260937278295402095805243448922213397869365327534481083248286),
  (171488196987, 77133430987641061302591052119, 3223544904482015463666441123783517705908117647668225905151517410661754582998428607470588083378461203024064608535833214190709233644560231286220678008653),
  (172678090388, 77119091608094533025507160547, 3281784663606728347028739845385238591821710165563957938191837792962923029106676733529669998813672435892854819406031547846130481726468106320777583641044),
  (173876240021, 77104655426425032566833926957, 3341115273365870242057650530890714740191015527551043025750723008851740628001370168602148711593954189488698105998374822700320694615737362649301595162479),
  (175082703173, 77090121807955248897826605916, 3401557788141988311411112909821099924013395846194912285485817261117198128307986011861817630989197297810862340755945417176331912907153202286646958133794),
  (176297537528, 77075490114114609058441448357, 3463133680521183759003951258453270950023221745859347976755247964499414778352686391915689666366479929606097790033867875599871839148839366967249701052514),
  (177520801171, 77060759702404070231345121899, 3525864848328967696839561203580969845110372649396191220226117364471376510574653992985954712598454915614496790640411300766506173533968166447612905620686),
  (178752552590, 77045929926385185961293490865, 3589773620227076492472796633281455553084692307812321021422845886651045914960647793465156623057206571853689843649896211612676937882869848374587427895081),
  (179992850678, 77031000135669344180312862954, 3654882767158635672845318071264067703809485913145829172298725001747014926353959008719678704301013715718421175846182976403479997033114869590379919944711),
  (181241754737, 77015969675883111421642805597, 3720981715141173178455927404721941104591046277344054115519606218059002313419636050455259952232186624935983708927488029936403500917953104574319638901769),
  (182499324481, 77000837888645812355391507512, 3787659897209123244917113930772068069277469401708162768603307646223633370682756233098183196737536590383816772356767445816994922768734271286870477474467),
  (183765620038, 76985604111559330558653439356, 3855578118620005976549935583640536335430677348314966981402062664181276221305826059305098135159916084979212430151394412969250317245051233175089667182784),
  (185040701954, 76970267678174036198439517075, 3924760175080579951588411442012029870606189568344637207174086657431939862982640273586829137620895348345839804831536367835428830146795176141831637969741),
  (186324631193, 76954827918003021501617112328, 3995230330692974752348222109905062669963601178615878647137612469275774304855149602881465478607086092669720892700451924789812778499351894280488192491519),
  (187617469143, 76939284156464361023737618802, 4067013333665519321760192904192894309953664376524303518334180900900866695342419280572768830177145375136958848508316674804417275973383919819091430156077),
  (188919277620, 76923635714847655255894952602, 4140134413544641994063802865478108905092739146344712987430311652081484131452939391590838730728743345415586882007384610554978208187485964909385691903265),
  (190230118866, 76907881910352893914806428501, 4214619296831406513466055140011220642879548345772651809177549744972415821394671742177663474847151732144623102107373122676155059867554365896244352031456),
  (191550055557, 76892022056009307505635977008, 4290494218684591572173354209196950696561261358674620045005073722301258080294491814983207127484903129037107344868894946003081923486149352967071655391320),
  (192879150802, 76876055460702608234076057041, 4367348900918708610830874084879530021339131288921955436967622957085483225888199284943818407578185128032384888400364005324746192647203718786266264637659),
  (194217468148, 76859981429130325627395356022, 4445036648300212923589556247912669695668625994583610673826726714255133843483800389968413749223335957400639286609475221881614939056633682434627026289434),
  (195565071586, 76843799261745378308010020007, 4524159849714066041426524622922470897808486014356134713676492513744941564439168792904393348778276717865510646129219316147503703462828862420915785096251),
  (196922025547, 76827508254819950188855760889, 4604745904687692858918482872952206908779195615499450941748020375477458537894820226755259805422826566814244046413971043747419307449267021385201547634238),
  (198288394912, 76811107700341453621693940935, 4686822752819155170563601441473112667462455259731402269401657920911143970407547015956193263638051640401105635419654400340077851405727084400739004970563),
  (199664245010, 76794596886052810360186234896, 4770418880963546506244168480141407886463352374309147084015686218563572595340101047983086534129201082203487442698173701845072738774675217772279164553240),
  (201049641626, 76777975095372912955106237569, 4855563330775540131044535223062054553530412065966468672271530395767409759325535495644624066073443039365664093712164323004692908943154062004076089881773),
  (202444650997, 76761241607461317109396055883, 4942285718152562766141581398010081891350767889321414947484937253729244556793990206226450347386333888174770957182024209769355114748520811405186140099756),
  (203849339825, 76744395697079200265555134035, 5030616239826317248166601117480311613210891787771654626677696208082119319969328327993860141070367101211981616963174202928429000349717640038834839372247),
  (205263775270, 76727436634690482269243677731, 5119531907099242934281010483330303287474352152154196050958670758824732879784543565015851493962075512097534551901312189394879635045220312430633444042297),
  (206688024962, 76710363686335287209665172855, 5209943267434988994524910406448076991655729079768277410964783020478394856318169674191015587119688897565998158965778967485973837936396690864691360630843),
  (208122156998, 76693176113683535030266819301, 5302014405602180329899813475401732851837300678028450787711536772495145997811390977866254083003334199459728933577481926677029721087005956418894700461412),
  (209566239948, 76675873173980850576990994531, 5395776832549696367000513252192880675782462894130330755516992637983902240813078835376998906862826218342758480560230171076015078475224817865679179506244),
  (211020342856, 76658454120054652357113938183, 5491262680399758880325268385569521589639446998441826316651778575737748288702389753614042423846659847716761774624722322421377799039445213818614663307987),
  (212484535249, 76640918200224652116134867810, 5588504707575139064754575674916181765108579583692561389745851531597835505486855278581366400304371924206532357933597169726762633914904605445353405139247),
  (213958887134, 76623264658357369389858111668, 5687536303215249768302102356323561445362892742247567321100824105009664528110357855078328766938593250780301120054450553137845602910428885833315888504466),
  (215443469003, 76605492733825040715808069649, 5788391514968110164678927059519380460442190363950837348474536862022767059580801977921005567236955561153402946297114479489169965837064850018715302065198),
  (216938351838, 76587601661464815031723644251, 5891079229155651144888705457071310784607365244287553701581580655960513175973394592934198507420072714357929169165608415462513523409231535897556275820955),
  (218443607114, 76569590671562166869447114386, 5994295717251527134185651114857798892936052744721603156785438236272232275742181427080144043393595334519153925990018095351118052303511157658212642169144),
  (219959306803, 76551458989822607834350929940, 6099393497868617572515479609772845325350300018908828460961836932006609250244523652860748219156201290095344572598227882016727454755049212290592497532245),
  (221485523372, 76533205837415427419665303074, 6206408075953042279905071912166030599653061976896152875311774628115001195390707203486960658450158139552831399658152683406947397039231832629498065626331),
  (223022329796, 76514830430838281597199653414, 6315375648330159781633643820796938948754165735568959250492174142779512276945546172529026713036590259644759132276373877977252596510861623496811096211161),
  (224569799553, 76496331981997367813671389219, 6426333108775884197858521690628543592247013661736813665086849235873794470298528528700637984323024183743299051698144976715261776579300773217822186006276),
  (226128006633, 76477709698120438230960066693, 6539318072245679723559500835352151730418718217933591017728547585464222842469219860848221301323752727700857863363349073524726962338292759806114059977034),
  (227697025538, 76458962781777712416911729002, 6654368878513521121482617672422138532508529474982040091448778855654814348811370811135550008947840173663761373444718160032326734772824959831662717110930),
  (229276931286, 76440090430855240257150964151, 6771524621222633207507330874661631556405135477605115588406362041996768775347279084426036822211882619618545624620136888635850929594266246301716882025097),
  (230867799418, 76421091838492740821032174070, 6890668469265215425551615182002736754203523186399645088700986902372845298429562451395228771772791425836783376814007877091273078914764905865836669189454),
  (232469705998, 76401966193105361500826403813, 7010539487896811507666169524764454346078800683952303742116171341712645096186096037906825643938562989599977270131005182347483975976138957760497080725508),
  (234082727617, 76382712678357932009619883449, 7132581047461575279030540049574312223877998614897779711371818315961935971609425076102025451762484901113423806859615113969017982152782493256403743354660),
  (235706941399, 76363330473115663457327836833, 7256833881951073923766246303311446694109371131043659409266002644616567567531572511411561820609629867709323718563491019102456232956421417781061839607313),
  (237342425002, 76343818751454839824450344283, 7383339509659546696436495480588431965693199748258621411255802115703895064542890202849485342260440006797661040065937688534200726236823225521552521273838),
  (238989256623, 76324176682626068017378682564, 7512140253089699752397845917953277819483890399682235812371550414092339760652216782350208957021415164000044649781766131646319295171090994024800524396571),
  (240647515001, 76304403431041710762296943283, 7643279257054059877115974940609494431381647516512630262191635987638460517266588865512918050851131250730235157774564799224046162521532202845246381439583),
  (242317279423, 76284498156227865646181264305, 7776800500413765279922110981639535087134175337666176379473560918160379534989939797610333962120909970253696207424470805066399872930547075380531049038853),
  (243998629725, 76264460012836289914870692777, 7912748812301997416761173976908919534938921035078635893248182671571455820023769605834407059373335137629771357398587760503045769076001400928594592965975),
  (245691646298, 76244288150597033640842960716, 8051169886536911969151173923285894669820300444934534141449464993129747848281216363986213046612269934815526028648212479704457009276503553736234879817875),
  (247396410088, 76223981714342904749123597865, 8189395719801698084239925649817827306580930583205065669320891725123252014449248292401821850387244061204185483403327041392522069354330333839373211760417),
  (249113002606, 76203539843915127604805014195, 8330063526996089339666309635953249116604654323759893891551540544998562408026801090578325361041027441180444716905233314693041319599071251054600749508148),
  (250841505927, 76182961674200397647931131180, 8473248313450259184550278171360505609461261232812888949820663612273214728149326039326881962502088387038476772179849472940381774861937452249080306726745)]

end TNS.Data
