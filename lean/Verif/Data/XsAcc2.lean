/-
Generated by scripts/gen_xs.py: sums over the first 400 energies at all nodes.
-/

set_option autoImplicit false
set_option maxRecDepth 100000

namespace TNS.Data

def xsAcc2 : List (List Nat) := [
  [1547454121333348332017238186109611299325414321251120135631345175447925665836311741939831628548423925002739778512173749420198822493224664923436650389797064382400031022977424089264, 1356197094440884577587068680485039284097530710912203069357925296579148859382498003924416060812370349663924790899510963007695709088375166462431864946202086700315635556201920643426, 1042902930290520038311786547512267009390910166881608510592828758139318128301839925186729874786784896326678560979071304610092201791191604773158668686039717985699230331541116127571, 619774139853424005893113447822632584576249153818514769842427544299387891762572327974356214420302447378557238615900161891732985631451393245901548048888547948403608741042288136773, 223701058014105290283880941995401670627669588299985545938206790173675207032929306409887248853014427249071221863972108252268052393921903248289511604819319815138923375918306917353, 32330078761489570752547806567607618809556014596782534397351849393230774626570463998222142789963902542376531546487747666052564463386460212793107320783876882774406579065540274512, 1140562224306158143113671860422009886519671801875679935993654338950527866519638054844159877203799882667122523463944157576767405705576500014874842284859207007426003791330953145, 10162890638686765796458052919224533593177619494143382354511503613836096965280478053291776679689379195150899189857041413347888297524332048855390355592479335934305600907621792, 29578104175152022131940338230497452709898310447431092566279866867727338564160016040148812235094319023729004107835499140458081478173782337680438686351528708627901754468706],
  [1544212399858345975575997677123101991812190728758509696754839493412355796820443961600203258436761358926833829968323255516223908210286676181552512712744617982101619287091742398185, 1350537577208178486498721465343651534154777244887379239506091224143872608951937797647273423254535356690220944021035290469776816119021592617124080114804029407107165424662723980414, 1034269544928405169441365592875308230212344024188965993472175329503442144344713517475476496213287056098835125668180808881041669308766713862347789907297307520578145513456315958795, 609687695765574110306635760172269558641481097391764882270539116504306517342139629786611298862805123566686832511159196550392288720913991145651014267116363476363115603329747378656, 216691529481542035247356706687904504909534561337819149146117275304260190303527372740492696052656008987008425789375613449705257747928939440284739938870923542199167755640331225533, 30483090929217484102067598955468181895671986197095757399991558211107035322264892680840250531730704225714521306107346705384859907823392144021346739324070714470908223501043095625, 1038476411274188275980404991815092896503394770716367532245608577977217089754819843483958698826204297735938026960173305707461373891798338118001101529144688604907581229010364008, 9013673790419351213514693052242504658005867398307096482713332338070059181750872155397689135494216796751752504475695510164222534371615165446220484302906787455137172670614664, 25539584844269878386183230328982605225993072734585298099885240316876328327867930358714650857169439609064400802799280071898997590027593881749762393397149347328086810056343],
  [1540977617440613440690878243591036357513394119599137043555966953686119958201221498007714342478149297785358563865140215368878647604077473789164662947088430829909799331873572375311, 1344902205782277218927073621869531422414879445467797890701038051168693521023497562306862614557852092629889597513778773533765524594086511052325536870381552198718106073019538092830, 1025709310690663557514442902234197958570370122523439646735095656123254299978435454034683317967827423524598673607268118476613288452695503667947197341457279082338255915545862772928, 599769681058885306452950852163518390670012023931271619344922927237777341158039698650654853693208533714692996511487218299373293723815405358241614157281685064369011292545184316417, 209908651441554173809281325169410463562688876385823911167091745324501505631380478956347755499073476605635470099332082375955455292739547604864331919950662325481638537926296391787, 28746544658804121849236348540044957471946247884362229538015593006934331252104425501181911197837660208073224880637970364459530980318633682028077904691186324648037008932825398044, 946235101107056961577278100037221399743890243963262827130157757002213580648818011770392374204842797666449840716457463000080152492243010045598285814165757778256469536060288209, 8004959016580027156861810926179206798033541502515083202954112767624225510670079927412523267047186657988732765786766787356284225467137877214880775227901616377228651179610178, 22088306187177164985740691195024183137429435511555604457983224402961048926404442400129010011175269402858793998803921692639750461157619506626670134046604237889983398582481],
  [1537749758973553080517667455399455476567734609403230399727523373825217386031119841989225588982819561412763979828606776042192142704011199180880324490543214413413897612652944123002, 1339290875348108042447465181261623094531701943645532312654903576483415343879311245823220965079016276366747113676301712226335371712277316025472199535582963819113623149985854264960, 1017221596399579630719276835654951000954094627651548170696394116122269648818173104382422820997088937014469984221554772188271985713874675009751696868176529041516067620956460442442, 590017226331225449361850266967592581605411020399674339746002761716231556425325241778101357606632870681787751494491439057369057973964051187490688432357117225191803846635970167716, 203344914825243863322307462134031577793737594897219412176470164142803645432602245777539690205986450664740745348200974426025641346972189871438372941316129219406193030283086482601, 27113597661153120413526098446530572893418616806830883127081357725016064827749445273259978887095777042004399838603132674023675026275863184578673156900976372561163513823163292430, 862827806776606790351188748612844273656716425886603937709903170219045152867906938065583793133050364890430149323221352833717424086013003665908299251071029696473083342378376393, 7118268368256394115187919998516466525000435833439904054658337139494548468141546659167332791538954562760152398020930923846267448887065615984162504772869239839639516701714511, 19133650096875469338686603557999261415384736179162924560580159298793344572785583334090671328136016998272969733496706610350736761815422105063654139883005524573985203862635],
  [1534528809383902937377515473642550831222007272616621109140290100455707890083251860020634739291940055681496197338565333008775552467086823233615085097378349380702368657113857660305, 1333703481551934427999879412705960175057950827788915241643568818328863153709710972370263314691842842216467044908725872768692498554590271832734653716707148681252006807727707479227, 1008805776402987624692167092189359335448312884080655313669405468674746267118685538732311518399558452039015414920701379638580820735300136552211866244154855682495989000176997405130, 580427511847406814411695878286824737528196333566223758046031892870087479093111477243810278060518344873800345164749118108385484716247112838729153896397296288977720804574870601438, 196993064158618923988708040155534870626097750305420167317234578072302402370771135290363759565728547999156501713121208748601691211260245875112454725619532207756406045081345587318, 25577843524834640319619230311467162067104950068653179774371544527370410497362360479456863236351059806797258977616057956552617477778794589789290299757769633262318407924275623141, 787353258229307619303803500388570962242313788191261554947644740322603751824396639454455588263704582720091493867988187670233852487569750586610116367861810920376205581700297121, 6337725159335047162391883507261278888400409896232440780562662589393188908659119979350424798482881055555377888717249977289144010359298346360044110462495696126803027434344116, 16599789224569553616102363662145127308216204125647076690695111427181209566250102967015913932230932113824065294183896275853558387258666341155809519374186895093708220040592],
  [1531314753631662364739022032771535043062120936452475423414672093879154875044772620043593001347445928852120463910739189930143988833702478129750919470387223499976641238102144101413, 1328139920499302487214341362184529887246492437541093423971825706745433189313864854566988245570319880960052898630932234415722266895311362017313417565177139708805405993245271795856, 1000461230525326076503390288839809601863505916638473222725226921421053002080822284284971384035042970121156131192352171499197426293642430690375253420811841810094127052963210064753, 570997766668370672114243711834886973435460848857441827874718318804046900014604153063080176935906697262163830507894910096437293228247411346474533705274665117758108508257747502913, 190846088865510649381051147017546608270448942331751807930358251853321972576212864959950883811158761660020736384624587281358431145973466805516560410499161139534136994831690257130, 24133283327408620583379488289234812597310488227774699149274635457156342471104417812721889800728980811221363421361198883440521652468694939539823015306470591252885086779360052872, 719007086495868898148293767549743982056695502590498139526252918607254153696024790114874704133398066427106963180094539987775970485212071285429194772930549600656186349085031639, 5649663846158237256835297623990940758395491339061555288247469264075023224566273660102852785089135921645835038026717696461697356960428610338831731033402399179913012367341401, 14423141240253981925874360474483178120924413340396871589521647289872555663568451811232104544258513455775235275218672819373564650557589872800834456144926405953802005009309],
  [1528107576710017816676179677020464992337185377350652422034027228749157423523485137748321371656993971187088483939974267166950606863982887236952165580882082846936084908587982468126, 1322600088752996636565887062508761054994843375004183169804310779652143526811006463349066200628551601628683255925605161977736486944221137981549615221665169346174245490466181911008, 992187344019130116880762322678014689819007958607169090610097885318661877712330988916730608757604247970484309211700753095090834350553308612268275838166238071197804348500104309784, 561725267795802197799647872023127393358571327616187381644374733122658121694414341012442029295212549848243022267789858855484364685677613320915552632988552233794834103492774831040, 184897214872523290359637228740172935885952804428368721075478268063229179510435240689950615386823026753229889804597947741559883178504518978696407027301797669344713159665350443391, 22774299128992183409950850458172665973921234870857714421648038794744108328476062289860693996718499612695048235376835439699219164158672431288889596420181920952888701794279302803, 657070945701207536660123580749815078598428240759132382870900832994479157805595429611912435177518487292845250057735019108725046256159804618279023053830215365858159180089129886, 5042301945215912434771391390771985719618154113817414724316711348123331025711127475755469141304653762257999954795148217149229300207886050611560551681278770155547920226723115, 12550283825481660975550659748274829075428709742925610336375685666214219662810647593231036880246353414829623400395364866529476398759461079569009853468111725766802032311703],
  [1524907263645268804422159003849312830162753970360949033442791797901651045992574692154240957917248101648457582766076763653018511787586145381751776730452183567085618051613908861702, 1317083883331004446575869626697964864700430375112648366969552962793714805186121260900962565053845117113342664211114512490462966890084897386551518960931427139342403481741809804208, 983983507516957612689757389672370400291994528817676747468303336735796616343856216242498753371506406574221916672035760864820850817509411930486917122878171644499223320543167684621, 552607339331899877482237958139861466430215230525335105271655403608368088688974688032703329750898916313528327996691766546106355662871209279589411897903427655914835113912234561078, 179139896505416860758336336379991371734534992445384051796041360984917906639589474506854232133902248331904918243125667026074779062083562225015782013736918627781345554687460773633, 21495629221441379618386785133067404575885044813532914450258126914803298428594478302379954116237308636041561746758982386594238868599294786042333820571211914680422707214477586979, 600902900245762964240898649058227937952965778170599491031051522620266934841657198542903448836117519063743926742063614158210428741074548754558204369684872095761049004840294240, 4505463576542201413695889928257569038910097920527448633783089247241694650775314558422792240217826697399558506508385792992266859068093841209018318629148548131522892918018253, 10936242951956140251543589002878423250237347784849258870710912278205345821964924168745595147230723081467306017003364464315398503218995434519128974668473749859168175361041],
  [1521713799496754019639789610140259803435983334776447226579302372731483351189884718438059364821110853763634307334951747974245002283638730663329866886313838449495129888154767459760, 1311591201704490634466847663875111891590508479040746290884118774897023178328821943449303576309286443761706124030866758178523795496598021362865130759455916956975308451503804929211, 975849116983745247538418543868426850282115557076348649491355949340668780588920110128453858634076996398923023338419280317925711773942150434426064206764456236776318496852515411512, 543641351654028539094164992711119796699328757175067218034907536806620666327243122183650008895042555350631924143631795817093165968573756920656274770059256970437317181174485805260, 173567808666700062441822646555531749734005939273124773489136912461413574660509761251166393471456688287145147502484304178860619444022698141065994127157850548111576416457696732794, 20292345015139918926577956705312739783699289321621054454366359313505028489928626393996243524317606453729393560673404481960044409480307983643299279443464640976442221370161994263, 549928925670800571089355226511999188543456891024093208670185591419968722288689078031225993634300289478108788256323230383463892188026521331149891661413596536952213236626782405, 4030346056498158498084606697020386891497191002339030471813685817448251409951338516250607048856087494667064602073629990768413919114516144075078889188247373134994719722257838, 9543084362364050966908658569816056368977748724912668606581525044950589822067865458963564684633319983975134426430843367828562384118342719925900461251004571542321310693424],
  [1518527169356777624030456386349945502476640886384407245070438953866477090509809952573498750790200937993554802689372981375666418899152725602923965056887035762062494209714402797513, 1306121941795780158867907343139613168346313103744824541906034774260090092285243362487938103988857546638126878984481335173314735518519383965460159558408575923332484436662862371412, 967783573669590663897134229171294870387297252721972608684939963857605680340844048170596552407564153662066669176994466197458756531968522721992675858979024632683179728176834645720, 534824720603990016135256601383007495962753047508783093398968197163600453211671797437987309638030635073746186914417892949970600476972363250530894275118271334688387433749415767964, 168174839284571898974192739336027929041029725171867104785131676502064397192847381732649502837989872742122333891079328478110754653291902289397061520655814309893869597415775328310, 19159829453416910690092038146927885062546499229665363251519530144887866994047389755338424110787447487308142353941354654290438145113982656736813755267847576624132131414513211595, 503635390298542544358934033694402671751395718009779964271646673873996222189228855988994078812732102518745569671087512921321850798594605425352157349145736231151120500085109344, 3609322461041037008992125072502101437195614861782024248512193505333756383834509493665210044374377215631512108407052939003431805754488965843481895437463041559189323132515637, 8338751934491864974133496470518133525369279392625386713968611686724713553754223190285308369280410982788253929962033220376485334790380464343600183904009008527930545434096],
  [1515347358350535704903994764261152458852402746795105473261300415643846960631360988898370294737656747358371081412775025232613903888988948615596741071366565998541740934287622364235, 1300676001976350375356006000630203491856997789753163350697659897076722001972313273529321700739622057696990707883019311731936401349669274262531214005109013930954113297552729001825, 959786284062956825320735975632639512621925963159010524576843873902245310873248893170474724476474567202377441974836471789284870947625635552736804119630924781603807709360004413528, 526154906691650240244533161242010042055718877913925195332577203391126184606427646099197021640814496456216192616825685914173746067213568568299660785633976519084630162504149610117, 162955082023699421251200097149087188138692405015968957775785739425705025075466294215143059850561569791170606454329540634006204097271619827039938078926951840731719844194221052771, 18093756852093092587698332710096837077868206077637204500205655418948777481973557154357134087678289286906433855107595811479878397590186277625250304256827051491693589960709163731, 461562400992126763210622902167333111052105873538058823828118771447054667371691284556616394523378978417867818041096817091873886820444231295255904725504659844229253668237049395, 3235774304424723174476308212964421476458309492627148365749956176568865907112588595818472003169896218962312979155317720135457720742636235570685050683290034531297518643572415, 7296107552732480858108314200793649150949202339018203523937485328081190134848784464768348228525361541393645049714921539794138984961333694375520957365020282241840523312493],
  [1512174351636042896333030500122331734232296559554907727122523819273731941764649388593248357269914752897406102875523382563413681941493709828005913953504243220961999816797564440548, 1295253281064832211806796444013775128452576980445523714946194404914674641628781240594085405666752466801254019814355793611739965577642847609247279852208223864610843776002145196014, 951856659844294792236273365339917843735301413436005638823871483198052437196376398446265987106302682896679643697032324359569952836796293029941462528748419947864893054214694974924, 517629414312666261862879790545564218168484617664242050948842554407123913657987327235841972847366021144429604757286769365778021875981303315607288735177107269451075412815169803810, 157902829248655487782823608523882942015768987594271298326701908454787896912761111998996258943256972847141611694376810935290509141609700351178976840856796316023647044442021929766, 17090074068618814713994281871761995291546246436919366119849779368813788522568408470593112741834041248658670641444811734157158137491606048726857057531137980359128895343121548808, 423297910606090129546238084382813465967376154588526117392814169333911882962673362066655039672809285994338466859209939381018155305600445816927115193729279471241854990548831330, 2903949480620163052923858482436827599150565109086305611707483544828921579160305862254041381325501025843450785376941889168728833128631176470891317700778701203115177839613539, 6392135834953756864764156723606489866028565285567159955422115557709800863325154163796105062186519455278764769819287925620849493016321509795165555332795024614518545131993],
  [1509008134404059165516069571262295286927371490899329200270424182506550076969096492669973509994330304416875304261961771798594557801519993562378789505815322632977130002362893056570, 1289853678325020322715401043698732758669059107484660938101651852813983514224059157176502241564357524604035144742603302035912113601574361430106129453670901693914964391446848300366, 943994117840081139317194906500655114034733268085720251349954982545610407827861214449505462230580017977876190697927629968990045984792088610205350513305370808870361361469016326501, 509245790980061315608909754131807103500824076551154625263739068887811123398485727237169806532378433722406356530810799316520969342464156966686537297074492466240308798468761900906, 153012565231164872922018648679037501711126899517494359797240016536823994420479885826945615964653024898595670818984987148691558578290586068124443863925487011777061993974236480168, 16144982911752769315845408471696064846186797768018833214396009917763277852842570528074616368914142279798858419087562616829059253656606090515617989448614783166664661541784187873, 388472497152756853528458748168698162839665907389254693619655939102699258235172108679441079645002068950081466876646879413276197510972476719060538204857580195425554175253304361, 2608841437378438370732575724098949518516592462692105775464594183478171431961190400024086309797144982416104363035508419950674263573808136877251383514931713767288204030690611, 5607284036079046760969710162644603758177355800748925228992877059828088260061654035265248673805513340713226335930563709755981649116373369724642606536755347640029838768969],
  [1505848691878016763974501785350215513374513134593178871252395533437563570662982048380848389794516777229197846449341256718486778440087188037046783031007487817673096716376582651657, 1284477093463892181833757280014387801073224560952008524607322136431772627035897718997411590747990245477911450927874462717631491748232892618152536378133705876468926965029388591589, 936198079977266276706431856948788563695046175816880224724084250622300227792922998283890839664980923145062317691362368286938626279168163077609692918451919246000841222045252835558, 501001626569400580783699443871634897763445282092611181537679606928215696442861436080300644236530589427686621082672476270520379229179328028864665782327585481753102295553773424328, 148278959592619948182304784541303270953678700719859021427505873068687095275977799018369451035422752431295075249693665475118539746037477216771873187818249832787381051574693582197, 15254923708771221730215680804817951934518864257522799470799312067345343427701016200592580659207893834885265574878792895466445187208117737352945606942516951245930651478526186384, 356754735617896647434426952389206299215188859174252255616683876173297933178070440773577750816607170583247848811774471197747718737524177595149715221417753615496482301254560740, 2346086229387162668962380127337770341561074611953556900885586790816759100287465901080671684767515865679008086240278159672836578611381477396814445926873983421693129211088685, 4924913038430716681015170886213833836747261491276018116726299259894452848825598922567753040067424727753005520269007982504703711935756578742147692270760792109943540259381],
  [1502696009313947343209537751905835875893622043894159287251444502731824800584635779638792406528849184888606337510505239609086821552489032481930889451894298098844311544049054512875, 1279123426629636072656455590655862020863915177301347637720380174890314373460641790736285632139999882090816507201189879210462705060161666140514715020366125834859915753730204250105, 928467973238129971279943590709587893844731834227584667713532260839012627846543247737506976943385372843999538035966760401158330991077548489574915881461498838570277083810711652103, 492894552577324739079003370665394016167321704726103450390877542081834655821308752989001697750584354855258506673435623535878572423085065439464687390973673034779392915878310254846, 143696860973628909328143767388474784506312802751629572825764529961062534556379462492884293667416116766965222533763134199117299140804451908870145020977065871024045934019592555969, 14416559952824105282661577832270965906221883725941080627750574543497167969670500131509702665653879039768342332079440081518960262310599806132261055900333913525615780144810022987, 327847092915789776825051198867721321586693270435268624778558053734660745070983897987736864827834830504262338624900055228572315316213212022141749540551175714389658348981364397, 2111874654470290881332281356951169769376583874099689522931443150799366461929530248700634819407829530779635564578828248077161859334434675479756588425934431401744396988857266, 4330839829263696305134523679698867672102495880849963706153443641779672447307560611294135269434461818343162073989528518845933718178361437876865539051087156107269017431568],
  [1499550072000409234445952950005754941352886892112478844473026357580976269123558438180441737059127285985756180952205258111114913706313277049568818412721071674597932883598328319488, 1273792578409687936471440064680948880848374382635295166016686612781159131995634495006269203156334473338053217918850524571829036599216261134150492016773737070055435955566893329387, 920803229615540397761508365476795646105004241254597194673073136027615561220902410164451762335876395068527021450762645209357195480598102577685818279552792202483504872077493264737, 484922241393202802584045526991425637109441063192890192180103290639889386734224080488267263075154783217316360257977262703901534579348980238656288858052581942951354799801090170796, 139261290922650524670404735914095553457631568975206469351822110647874599561846345637708627004364449999016627353858974237566552396145523560577040513919376532412594160744909553476, 13626763958295443192530487417817303920399421757545266795434712785581356574844264699849149741345410884852621683558598864468635513491949021134433884074145787713898485396357432085, 301482284849807736475049612063185690849586488163819806237863705730025437522899143729537966997208470437680990133434577579029125662095858745870135650657016005167180920817803626, 1902877137114028697239418793017622453749313757747639141370146767172494416693777562371379978473430269219549232079858780328030205172758086289023332764345764104860587993285333, 3812955482766997454993544571389520992753088495256470066848333676695849628849806120337697908650841763115897913086701403101650791452665564128406410607305527053244615418222],
  [1496410865258414892090364748799463655959548460633957659881851603488599350515313129935751018349207409791289476337500633273701525464728083374142695379782568253243871031421874015255, 1268484449828777037875546672121724981549172235929038422418853473369134907031259586785901777582283685449960955979087076923108809560115736888776274520778575964364280629888952668793, 913203286068613082811776417585072873912104262834737331423936166234306725388228243609170216848161247082170503628151144898390245586752502989862446551578918114638563164065654518661, 477082405583669977036916173700963164989951933094817621104223672037488801724860691893812756601021427914435991611116101515403469155366924275251717067690173921984764260770909232215, 134967437996050023064368101136383937520942530816036653850897594851968724347881789305111518087318841861149842271266611499150797179470456381485951670266633090534927084567228769178, 12882603456907807781619468595148601671406718816590083977455282933082834166783466993603116984746665670501504349376906493780403982381626135205807469080718488813808848615964798270, 277420041288383939737186702558094656715741006890956267600821393980397156577045466405392707808139510429494272679327719746683001214681958634646117848612542588579999945043273139, 1716179404453685115638270194751653945988837910619359785850403021124662191169320393327200753503373209853213021787376050917333576212922949540976013495428853238700539764432432, 3360905584111304228831291754774328551805836074527658479019872326290570571293645085440304717045685918065609233413755433571688376266392636526882443352972754587701156741102],
  [1493278374441358500532618403227070114120180021865395239954475115953210166425617921371858937086012526242286599038090377100740230931724950614840103534208757786196077683259542026677, 1263198942346980407837616197705998153486267040932829187140530818233006046311961193743590959603005291141816248920918386560004864704699852504678762884598308405669217637493333554880, 905667584478766138222661051048330373425998865223342122037981021435252257803326499181134629208869103024804933351539440921167645140830213736752222135802262962331077091744086450239, 469372797189820539389978430320880514417930745819147621738988795049943115130145254314773029394041907724880246079268498069939130814177875059452245768348607486912706914267587284418, 130810652062181394718454728187751022222777664353209256164002875948011680902234552496768759511477210178826452522174083180762613125260767945212893780471292483815047769116512205350, 12181329071858718210391942045572942408817405001249500287909186019306869988719359681429332692552871046439947957963866696685439422050883905043776555790275833942002554072279163425, 255444232207413158988347144375797098025925523275745600294638294961873236832662242830818855310378796793117359481064452572360729174776077227336354184079396153873913247045508754, 1549227315565164552880511787057788199509362890386173531866795148500078537326838907858619779969046510676398802000459674399504681073665051060727390445206931231241747507400023, 2965822396576014824456957304080873838238696646291514632939569019654931170481264876876614219723636090439874724443790037330516280872036217072001459269151120719663390905220],
  [1490152584934943743919706260388060047886356919755033808215814072253698157684664355859422708079658422136334275730662116264255420909532447164787521916779352470983536539567024628891, 1257935957857786024573843740371756151531339031024796902932011414945256253956866299999572133006615588702081945729732642678958069704804459090765817786706789717245251522354534040220, 898195571606168212054819681716777748528522364172815251753586035855408173114099695854146484831656534522200231978923546189604379523044369074369430612356453691935426514603236663188, 461791207036829846570111861333942767673491161258924745639578272886979834328961719281649945099780496292785965685729113957904300632443398358783398534749934059119373484191249422495, 126786438802362401928752462303023939867194632160674581400100831023464577659752243762637130636367774200862795822878244259181620063367853935029972500511574110137783666280492813754, 11520362611514082383468617395907517765681611084156629143543364108964399942474988566978023654785522731714109644284361726243808138321717207593791951547163772288735995351619038504, 235360312901755761462885299037048888983101878519173718403390509847501746716197256395378988102697096653452895324822063960218866349297106634442628150023494255465173721233327312, 1399779467115616276034623765055615975144122099485533441334098661997144915243584676133753294345643677338270166863739045963325261040132126985569103440567534148588888018180230, 2620099989979655286242042767481393831266815083828935019330065268854703777511736499668208248142434772807210203565428867305730908696637611270022776765662308291608595270221],
  [1487033482157111738532490677221515973885744062163838199920199566918877328340997085296882539670397656394296856979719138839820713247006722334805170724968968955909908541626358743761, 1252695398686164692681117407684729479879482934383014187125214669348514477472772506242004868613017999508246883285654591146595653357565081025062986143050329155547669386090107723706, 890786699046575618964036789773182015294810551031759847144835050722536453864566105217127012731155638729178614407414698783409010956885405801853953430178066515999489459214760990941, 454335464055783655203787556435765051751384802743859365500882195486021219366913400543002885574058350190921154601368699930303473520342483600614459709478960189632572467361995570831, 122890454401860335214325175357153970423270836075402787849052798077054238124499742490095122182668747237815477438038065859716661896080692923665751374962713244642908382791692560019, 10897286128131470565465645441066450941898752019730592468570026074690792693733206956599541367667896299353460441848431441084468636970677392899981185395805207028110237103622842163, 216993051629313144369643539939296747987355714567527066431494443867317855598032502490910094940119607527000116747741631427160641182569910638784356400690750778440119156129816288, 1265866416618093824382894615829667771449210260505271457037138626936533666544697873461282946849268711005331522364361085963023732655496809206761171269112759272661096235921085, 2317205107318037112254950194874803927901509059604981231529174200557088745107470779568391081200831755087248534825296621266999439319654505679483607663570254034439632087399],
  [1483921051557969127396345471689436468798875125903764778357313219005203174912053135831783194212063906936245756307993564564713958383043646855670206641648158995099859876115729743849, 1247477167586650581154359516806573548333215741908754166587418900331265154134643591212225907349680612366879878229381248072023081137435662173514956353079716412757533702247212572787, 883440423188555143074505060188636454441267188361396857628112685974879190953944463975798225594697463845608408686908122662110136109468593697418664876673419346047836001510840442483, 447003434617496921408146342807611640366548547627000774332047047636460728383076597206835436451611664555627592168468643236854555366533825888121195259141018903315817548493257853633, 119118500424249335571299359980462190728244084744476581430205753384678396912368908854666637968774898487042606103330744934782092531326530178927942127805773377096676421858825805219, 10309831690764138336786128217591869709086021070059261451103237832499039060764510964915221949139142060025208396992998919632050999828912861927937949703999750571211992495487884101, 200184507307227431382895213863076361378320130362930198392805537484705970493846818752749662113224770365127497788478075901075046118877956182570514639860039245947041496350909756, 1145755546433414286623289412277776417694962598983634615428353794742855669469776883442355276394116804123414703251023245883898559670994946278874198354653956547560339899960717, 2051517816502601571283061828410593750885355457076280014424818629399190867126493015310290406142333859055013987415016349548826649491464431921273435232700804796169831853308],
  [1480815278619716336757673112239781405230039248586901648960427228192171450550665804291238656511358821229267461132501573362075669339541789186923730003556486907746964381634607165810, 1242281167741430381093318036340786958744734893436906318877065049282831603261757303522841989097458839730331301618234985184784647280550040975586121560054853302001353325288176119740, 876156205171089038576025023067023407257399368327375432207909569272693858764488888532773832139301072835506615376269506842285431534354762152174177521305412073459257672890888517561, 439793021878108166861739836297094694454210322314358844936513421107882194556225661223019087497861058069780566840276847455319779354681107562722039362211000677777223520041418207772, 115466518862734256242994501457356725554698253099829806834788876757755998103153712499093444211756264697151355305658824148232748003443700248637501389928435535109096073771700595684, 9755871824923876824848704999701255309306357381717783463733549820594945630385980111512451047032244216087879105223419979827202304238970885305659955358852264524116181031562919959, 184792228706362714048418704312566472191232401197341650524509569051547278512752728901051001621566269270831188133528900659157735491561499430159102405811974019740878871284048996, 1037920743583244432851277631121107123553783820355185858626845151932758851916234804807615675391441603217951845121234266723604505668665470451182325133744409356757297936923245, 1818197031071923847067639728018699602315732408848004270713140553120308133779366109356461463556522327898580006197298971094102978815114271676262551341005524161394259867025],
  [1477716148856575994059095298294599687612473188226536034064359979644047269642202597881709281971911079227355712766449051931589623555222634705728524300986158756774025294598101280385, 1237107302758441044082867971829388553614792963397314750650820785992413918213067293797867429121289841096588950541127058931202907386701206364128942902043064408554166138364361226832, 868933510841558784750697579829596338693894047647937610406155432273326524521457650022475943196772962399960746709518157615642988540581960352342532036551155357119664571608800505950, 432702165136239343577188663884356604155188362248893142745453819343382110933522324881314912169257488603632121079030988772983776109672859947229583058712858860114297820278696580057, 111930587362261866528700244916894184659719568238785321445044145523667270171302129832563732416736485488798015924433387816303303643184891796351904848695503273021912979221415223242, 9233410574774249251847648259437812818742185790756903496597443715610081227693153655550703730311318038379189213755139901920720125479595719514419189901067859593616774802427188077, 170687649953050595465722833898110181118842155663699389581201730946033227793956244055138441281215630041506912497517411889366293625814098579450550815544255487927993435265751753, 941016197550947643425646348092042779082004967420608966392999711104806916548976194060863911736143763377513620769527803772790526290580540396485177175741321359848394990572001, 1613066832242700472797491794681433324799803853896800430630256290036511212433906680090760368354466649120129128232886406287803188029764060740657336973535070728374878204292],
  [1474623647814721507046953102381010738283171683554161670487531654455559680194856754773661120315326474288364451327167054831205973472548148711096415099462623636217989466633124049593, 1231955476669476062408675700940610813479641735665409356515199304812023205846983626645808947759501343486335604775385223862605038831869932124816009074289436097801218216171779721969, 861771810714104183375433451089949461409900302043965162250644306115800763398641048386529371204465644535462045835604089604815229019317022894405767205918948940965234319486802676939, 425728839201514906393453856306972882230058604953535276716868066534500311781648063568439770333628104603441714452853870719322995866041271344457743438655891953475703880452516269223, 108506914606458003609330797203508728265195222625087558989644156250725931671267947835998793095709548987196287460053125393028185304896137569542706351737914842156935399197464922704, 8740575146601664266464228291866437123576314862182967577337499931596920987670470080076350947068797551679580555693536479042261719077804862852387212811347354762057860944894428188, 157754660103537281487505880212566888774678190758072018087415346839220383848343383435601531851758619413490128424924042269186309405774501057831334406581178015299921431802748778, 853853724790574373251209870650125958796283431476333812420248180900357465110551969183898052735598430355900325881776695417117504030905681896073468502262523257447302848526969, 1432520220351164171626110503788656404058725058333984819328781902179929580595101130825018218700975856475517211546617809111543400740610720278879088875837031390910251841102],
  [1471537761072205803645589436746699289144155436819537078802189172447257326846656062273622280590126792488133894575854107146981805510748993688559719956336483293195092265351442674714, 1226825593928300252447057673834488139207067317546008382378580883822158021639329920104428284680522471883178143022356588357435142275997088249209174399654926979914719229116720826933, 854670579928354417402189770599927636698549753717485500912450468925894868690780441599161184704708518453475369222458541054435586259388226967899539842580459277324182919232130511406, 418871053774237510454833476410498725121527831740506355504606804742282342955691777525843724388748112686966430045696178310962920076021638567701076207620406482772360939927821779642, 105191835863639343315344712642568366705831718838286473219580556500840247871198923413550536095725517690587680736128134555929270320860938352992270985299432615383570316386436867805, 8275608095085010753802134979980707803718960034915264012050654929111865000709884598486076237497302401464677164403165554572900854330285532765695271153147387198833532550018429715, 145888327156827718522455538063763710557152979877036499022171135742303029549479085909342903536638599535911382998206075496903565212441101388652913412316648146480284175902674681, 775383118123458414066581485416244224694114431165306992190827927459188330428580167923562168929267897645225670763193275977770707378304184575973361914591072884048556320607035, 1273437495270369090385416138322888073734748573005523094061434448579693551682329889977792047623694627126910890893549388736347396802490225172673848848300323795084020107406],
  [1468458474238890232233721278322761029269906709196115904796074299133612130664524161618586936754325934306221524050835785881109620488974354258480299212753618025309073242014895813974, 1221717559408773002744032163084596704887203364528262868523287882475911955678720172221662796754477970256128687906022715656659335920650158518379720811225843183095455350762719425016, 847629298208527720490883392331499806551547532040689901629679821011693215610052327811017567402683531316753257080272388016885896286637650429910073915315436596435293938335401440390, 412126852836021392091135104916851738646412992313486875478939334889432438977647990073632025699379568239711029625947902543838268858644279414316742231309163564990498129145775105320, 101981808686351064027221068164233911923406377095250614890121606167032302733769642348526168783048839821586043400936368834793407295092141193548175090041150754102121846885574909487, 7836860016469169390436205191017993423597276657583811758386384272158687739682050439496471024983959102086063597236565403763826913865027998354658100413431060352245588620582424807, 134993759159551066255859256781645941182347567560709432341491796474812744040025047960894101641687045727090767003510118702106272576075161712765199861720571424057418907439125440, 704675094444378833105269762509641248145332639825065632212816501217114978984341401975346935905942779059611554851859273651579019653178896870454625804991826596298759945089691, 1133116935845049441765130062340947983080051558139554751216762710422285427186613878141067235928289637440209545163328171893837132037374168937473691538896189135523221732044],
  [1465385772956373621959041840123446633247480124346785150698185962002340264170176359230915300940366054505185184884945722454113163061264931597930030849250218728419459965699793449183, 1216631278402979948473922613066737389241659768056944128909664366861318928815209989364546372373719735098346059072925390608188794786280195218001940990089660886102135504746582228069, 840647449822896337363015472679662326187452386619956716344848251497531660612805434205883401687749894398139865116331454733722482122131587657786348195033249459100942059737340074911, 405494314051188066779930537895350748489948878543579765717735486927740174120357087292280368335386025582191542843022259850856575899029773471220122802112468939637493118635256484973, 98873408759077086346482508235439803303128285098454828649086095074821701152294337917007755415663042165343799965677081814057469950543987120828062534172606947257099762222525805599, 7422782715156590351894336760543101861277663428494172600339601216997707603955015481672269004398089358280815994543709591933689710785950788698327284369706005289787084828579067864, 124985087070435121453695968199651380759472653413747568679136539246748419780605857342581045612864196445750528834869756287304978774425315909954181907880007279686751195370695662, 640906477550822045697331440970947470757676964841567720814583012625357638379995773809455291645661416718300809807053830996570804346873162163982684861002458449252098417049170, 1009215836378974206680269221098183538773219952411903314428884036048806433989759449274844363373683536643417911053918400904745464727439620868765039980308339575452825183831],
  [1462319642897921502728023719084757291790549971371312748196014281926849194994254763084470976560914297894395542536113169865311523971735758176762397566335679760113228377097182201567, 1211566656619373034142427319047877982075343267331656004929289901113374978507803072667218056413636161719666702850631307842117419665929769320084091954786801649703431302087126300737, 833724523543613485059741136314927842314802771682041599531497108171351634951641643120015920456498568397698542957537884377447988600367147050575008687260835113409500657352383083529, 398971548178732488456231241768200812977117783464182133926033385181698840496267698516157046012866754463511295478755887610661643591014111245125029405537330719990551668225388888255, 95863325888958042069916423579360046384898330795675090989340303309472570376269299725483684166138185782582620621598011703238808292536953757371277063667715839084190517784456207433, 7031922812476352691897422648860119709197547317302164994004239824884645724386002447015198747440720264472359481621781067725738964227881903632443989724894063088807891027891631829, 115784555825537504985466255628785390250789760093159741156126339030536408316073365350999752266575012324017091250689526574822247933318003789458222337922046176690889933014940644, 583347306404265075242464757720674877286096653613333140051296101704366514686334218747884414354586375752229537178924611251258769526408817528003959504298455879693592432026081, 899700278791670495429743597651835684063597773366617726025299036672547731518524345100402908729155669972454351346390495659858529784981029464293774417468086562883328844539],
  [1459260069768395484508722984290361690137153494107406090181813879674400923224426929198552362150343436338519667834481326491848205181755117211281500394413463100766348870932804275220, 1206523600180918926572826364215843398079305673992516214459459014632865921309446425845185918596276182099214048982281801507669488790436674076716892911690149867134331027957923335748, 826860012606899055028976458366180220606735877225049871973325284013598229545521211291155751382128531826847204492615652098615594259998469755496178600612514905649593584991533852442, 392556698494671261514265942927079727295001085284090466662728624517463128774276089712171101949055289227074727071509229660749688157403076671561783710014850644367400169963763337336, 92948360134533907351732932201576537308593640922102257599086447654751093730301299593774930643267363876089612664437297702199976175180029502902504054905973330945203625382149544428, 6662915768482931341203099364459274086936969953816982275123503250156256140067879050995354453505043063796298120070993683517599517875944391518885210029446128787717134390038673231, 107321711607909726551867723232657351767071079374614212578396604298811773822217539321213322373420156457484942745487380996751579863671713567378033664301558702904812774181118499, 531349604349695879629250270946949057879247722636886475976553910187755745293213991875526825744512456538487592213728303993257487058615728091519063737870981996487371360563640, 802802284428201409761613112544324999240118833700697590921977476422961002546328857669043645902609195290593676339348603931725807941511103014909657738674085724865754862958],
  [1456207039304182795585211199941112652792055474510026723680511617701139800995791912017800727981870143296876155175344728717882177023424789471086439641951578290788252984382196681239, 1201502015623255740386956642447186688657557082043602967144866211964261377667691100215432724025047347816772136268479169698018506545910971052988805821564973667554199857240680097628, 820053414673580825534674064900081295472071286633953804668927692163335024495232121050589935689972426942142662149102808796127226744070318970093119873391065289716819999631675968380, 386247940224587881575707004242789762116664210687217899285062529483204417483997882242020545997089886877228004879912050044148267909574399760655226457863245015499132336926277935583, 90125418067703565839253910934740028064291058483743318573479366900044739720377181065374806860655314057599536804428145454003876401810577720603107906772944493673077497790455785805, 6314480289587747054531563513492370898402989242340364516268365163846509483709576616110902366267241825120907240586313062514050613245526965273642113324205107101441253688336953497, 99532674702578686934031845942339654225589548614006352226589964816755421538862985677719175996652270700443495942330668445836736886006712504461905622309903689921367720418406861, 484337583100598517957255594853015622719978934712925561655176688391014779200787900960149549293375575110686738755689423282332331199491624251353892765276645565421773502500148, 716983209560009744726222548079190815780615147220140122268793111217226255997625502955774546091933025282769817921466318785757994982932397845193364132286098754509128604615],
  [1453160537273125979403087508722561503275172410458280046246279566521379095230828471350834232594544572518176510763053109568672724662903877715400407233729021962877400690059118222080, 1196501809892858038364753064273963334109232797031536649001049746835263552814152637992794635981548467630209786655557631084075830403934467453909452360967368203035953130062051431345, 813304231789987983180116598995636491364389026958622109220440639639208435343338666959132952733590673779949760091536984063325628676322988988893598989899274526155088045244892194137, 380043479986193304612964696609962941961621969369270616623734048846755007406746620306391657224694529441103883471880692718483050311490194567208826781896185730813019093726721861101, 87391509164262678511992691392230915610353050990090033201552941979639278478907179736581559516084031168129961232641616113784628566618293303349652377305745420774358430616939109248, 5985413096645194144116692046823133986307660891936451557923954339301226783633279170188144537508441415583867393829271334278358717824436801088227827516876465214566043764999883950, 92359488532135056609016561852672637083555948209679700751431300095598881502880977742174496723873058495632551500045839454654760918806682736641903491646142084043965420784567151, 441799087756002937000308161563325139815808300376299973070364184517482810796882406426673217983679947320157354181105713717789941227024988141334523976944111248035658153681915, 640902431413354481380310172256223810298250477908096147460319596274209318596337534295423118394353768270539434639711134201441883799533893520497553491556426031399769225272],
  [1450120549474452749646346137757620033383293493572728659744800744975637315596845083526135873101640338045123129278065264447483101488722295611354406201118080194447186073451720772896, 1191522890345210069237532333389645847269473720261787060835793623444839057586273242444379170149976544192932516008263915153485799789657721466452833306000415512657247623868290301031, 806611970349193781368449325005999306813193858277957290344524094196978745294770868587969694785747444924013604949706950185030796583338263706915212682413199327758176245606116658215, 373941555241723407428593789835266680274964655396755012101348105232482188036117896398442111336808088485548028260890262590567560569561810815457544496182607382642516738840141631741, 84743742318544350150315971294804709657497349231432692545909443649685622390431240525781283219389335572373758027537679379026808009909042649553050486520764215290922429953146756051, 5674584029810288639116436141312299268938394215929763454056796686983141517359996236106641688713519927117116170258043535825968276288335763281507445071225407462621722484640204392, 85749536539543757564255225923857292803759637084288035359908649169563825602325559836502176343340757455363120458791721881407718815802455689391504080899971790600979793755987674, 403278116681462709855719747194641203647127030317958135765951457913619643390850992083909141750521709369496154549336141864078081807017290683643579930751815643689977224552518, 573390523672333775733945913815361337521286796281808794693554967167487384811815583522951806734995625855481653289324892228752951274465063019662825645254649119607605754986],
  [1447087061738706003186696035436245633190742386404886681086828200967439567147079034051085117518812397794780245626249360053353204753688045804375025634264784840287217440842757029775, 1186565164742987205640788625403186257829146184870241611698173370028051711430266464290442693703605456601193145483602314583586265371774215679455220483738358096357624797127530034784, 799976141052604192290151644147214029459030101291526175867438255486566853481618463753485261713985742875393746839888532218711220588283292236355345997314539228423174504730034447884, 367940433759998106895622552350805258993950725214451406574416772935146071337452958199959503311175358099375922267431284504503215837730280479934419836406099935293161585622392714857, 82179322477844412030383307882171293290165119860495288069288464206996306242447572616462290238999665059725083084891477678814185544548351157837446732826953427458169499785796658662, 5380931468065787648649226913848180984497561626462282339345992404396155352587602232601012588736756032060904538049865042434727312779315108825255306043044032988524393996291337105, 79655019530323274024280343845837157037468646370005841147936475666507457152043402902725098853509540765487697136580259277709357901011238111989060567313576272701016946878597372, 368368273530118587019210451217311575764925095665644252087024132545290039702430784565311883005499785338322317877281279550477395598446934796511732217870399093196105825559878, 513426247190259275901393090427653661371977225414410257304031408212913183867900038427250156059609965976729707404301779699048318126966584127031515832519144978457442163952],
  [1444060059927673990547248807541512804438328753255700319526916555143823176870173707379126625678681716949445421731361323394473418553970680844491711572742704489547956329829738863154, 1181628541254245545122081716315494857995464753004500151459339536285222662604780277009125393745827279048332646032333697206095004682197026999128304546018304725051678981905579648757, 793396258871889437531162063921819003993661416781716098870547134843550346927199198102727689401269877748277097823271362941229341024281237663631957924584726636025241535613563580674, 362038413087970051831923397088180266999985478825709563044255742876051865295077179136856561022853834509168830678003078813192130455110931679887347870933407776591035343250085731112, 79695547392464893110851932341961081881259700901007770909256770140136867763083721530756210033743139967958133701005616240664721281543084879570553415156755213582058515806083083203, 5103458042790448727839843318691477205919216810474686687624662322625252190160191717677035050815106070479643772325056743601617766040118084697828976394018804280021328352484876906, 74032486921129931054708792146699653863592568382283252011182635934791034735508333041538169033854058326625464039326815872691381687664290427640610765669087394308929567279697685, 336707028648854577115941542640659764170984007190968953239203413181044058710232117930979714787822645360587921542030578552521761955608546951797183960778846680411359575463764, 460116787495960208944486453534021441812129687192499150588480266907605377100485386058018987815496694525673421514756220140778250614475769991771847217716251160139210194738],
  [1441039529934320643523308699554509541626706874188907386606437905869793667442037666756731643629716026299559091296943811308416153220638722055122190932205035714377015978189110984678, 1176712928450619637268631195740389929578635152508284248082715558022810392935379230849153188102890529910878803181698589679377363252076431951047848341774333363017308389889222496848, 786871843011255310639329605651114530270193108131603630543555755444843761278111325874436099980408442605341630983487791044538497418752145437737341822263970980178228087314053274621, 356233820031593890968182771640304383579166445294345799907626481055272897904355351972856854840622294357059827213186388060182302471212450630147858865887701670793379392321099055900, 77289804477355626748132205964624258880418321701786768731820377515632711522532227560455193826797426249400330587849750678313809515918210931711621302116002472650935236727782483271, 4841226626114333548206477115092734499034290522414417801976979362152920090812885919261769810921477968652199521168015687375549801522783869331838077816321443649568530272335442310, 68842416079318059933272709340531881632069732345241218016338019715175515927379939013052735493196672859369090269676862506691934568701989690704640788073727700404575182713036395, 307970684147814538063855689638647714447226601042905675380180793769684608365169628544809970631777263711091283277526289920880976649731201635021305463770818710160463200883572, 412680759199305274944388475022547623772558846136481124583040614489125463271684468756125214741573726082423983153425522970084744361110643483519703293160178431253992135265],
  [1438025457682716059603814073095948783724749855112954445588188865496908951428272218482773232732340020005271742317733788809899335030332651838034150536112109184850417837279270348915, 1171818235305528300187488942867827866704760538372737116941859934131262864937918214717328864561576793470087442357600267814367632146554777799689885008341881273820157807898889708519, 780402416870051232973151967955296557895293585844731299103722389766567954713608111896024397891129387988602986535608479353756529688901144432648578470849504527494674023035825503249, 350525010145850154207923972256773494049056833709066269153220212791294266714302683148419133301913377553412702891980854876837147463779027717662544906077722670367854308209448917825, 74959567781475128803094551106133379309667690510062917033433002072774713783606462566363799148831425109450251039762570799757274087007882607106648070630340315091755007538703456897, 4593356576088516516878044430073019388262330553480214589259270738580150632562194605301594688953692772769251995220703483287740651134736502772218824921444642071247910296928320407, 64048834589883511463411598775424668012591568282087906921724229552887815882584617562165268477765591361401062977904804215083090980430060792603101696141699991668372918712643173, 281869951461440437749064839652234668262636281711746553446755235250539741575500151038665429582264184423647685421346223120303799119270220596580276824033481837046767844438382, 370433571538653813934256998147528228050428684832888296853065590292760954547301027114009710717348710985853843767357192392905464457078600577261119986858081899294290888924],
  [1435017829127967142837793652611793419663516651688522203689338784805482659768556804137876670950044800241352226156716199770479200897779711567014839072188955556860856019946237028838, 1166944371192388489738649608711062376768728662168077213530086994151879009029844274011603318677770444595068568048300918296951873885550703847403813399079321846591330671633263351889, 773987508005712011887740230567271335064624022009734268756868523249360189421361871128863847350016585946462204094409538438486261566467006808834779406236609871835821124969681972943, 344910367233760763284815196663117309456725346897407175548213948001299209908309504430788470305517457272636166507048815946287312968987287144953221389366244224649784842176184477107, 72702395061128070941742294678397678419963820479337396412844803160040500761752891745043368605855060357659043722291891148758333330137950717210912304891388777512161402566318932948, 4359020221891570367652071928559572271708520893695333527254137419619547053050544311542688343569282456788661269735776427089313727255265832811075881467008300943639467882463855109, 59618980862565575164737454084825333112706839871569079647820742349820401392407899733743804945366862160205971193577060785214949428988824949612784569402005781908697333858628708, 258146062675129246012337984235386667332520338270795786944425233740759572278918654425633952015588191094675192950558198982701229509340913788379238036719807931543972332085552, 332774811504083153939446368308172895018613185873288342362557429559178223009760836491278391290659107402216720446025284593478433365839224963365309832707840963712078354066],
  [1432016630256148400791012777808074064705288116266053364911528681682409660049441038420237999198822428320446575430759336038024791036977647877778501525668998650268640562040216386236, 1162091245882837185088178986733526325012456704180064124740157966209905610414031406107857215210527396221561259784469065122640428013341287135228016334245569337777334840306049667157, 767626648097030297790962947987422180220269149077411976221996812904982833869583746590986973318263746069993100654004473878132493428641056812118982990936781769028487345720837285818, 339388302854236112994024524600267091082487064856745739510497585051229284721871555976794733499917247625539106286354575892453185100627678740354718315250734508942770959297944550526, 70515924953668038399425135275611705222826387968379987461584830345275279321407273231558757215725423360701206280497202158921019924417540202071535545091973229243530368607240331526, 4137439573409664802073256258146709497372135385104635709319612843905366768674321864777472627843292384729655423786555044870096891729877269401885275456330487061703046838654402482, 55522999001761248672096131038360115675917631185355025586133197418246573446162080406494322250111737363777646845697716045342127158803605631658832587207401373514391883987798106, 236567347552406436397828694321105739614730912669940617763002690931977036945979854878326350281139117577626119422317226067895653023958208308385823141757484472273923265894732, 299177353218584079608806924448402465737001509513048885391729830885896405343099325367180598724878673672157429378528234663279798120740905010628111722033246667666545576995],
  [1429021847084232897238794992491767782688976505059713023641395874578305339012328322005289080494614680997272534572942505731238655096366762823457854136167477835666996306698373795963, 1157258769544961254314396400137312265300109118693790644934476909140884188220908949660876342258068547833464457885023673991056391406780875750322275206236962245759684454837284374927, 761319372907756763830089039142745512109271590426887796367435231780843012740830373185832055578402229640841505535662322577166909165875064761316076334340418259139539943100188232403, 333957255838596536389315799422924321499181772856118345926918734263572498426538271128233200718630173440009225836131039579529039082680981372988266894662184179080982889299793530268, 68397874248080976481763832515452282245143980358551722282942122537513705928948659634704200804962232750789810923934019807104243764533414458250275818524900552865892640801179588605, 3927883240566522409994764804274239842223175002784294939474548081309909160712730811704862564815533636863939325796208196852485749567847193924035644293371894954178908759500563763, 51733664313182631137645887467080388013647666374503342225564495286728222657594017211765989483105085998781292711278797287793010399047910665179205850770798943774779706430586096, 216926217341502421518361569219193077143327929724306319263100139379075923024491796941928436290932187409962642964066429908312804251082621128469552471522923049557650626440620, 269177946219939104182899743502407460874221783198300870824983915787615932795487316274414077482491880482377010652510786833136620070469310547479318666505526139534207697679],
  [1426033465660023360241812535388347484148283593550025331174071189010216165335912265151534944221266745946423039100563414510101041548022497172282544948469128111720995724987477762663, 1152446852741535263965343105004622984134740447152639640428480406002463611637457408864999095355435458218110414033567050699422099245920856691427771769485204200711774414366903096946, 755065222250525058948267444469760382560885766603253120302335517720878862788108200435061897019554244465575551057175083302932256044760450224423660076466123342275139023399189774948, 328615691815613787656685090433111697375754527497541375361281322721812946863937409091436852071358713868081135519631596570178341104374131166828394640259672122554422951494927049956, 66346035249086960450989354675981759169306932390505465373536442344747888570289772080891633852048751590315437565259248794986489359342686144850640003143056843770648110846121013098, 3729663548748941753111902175382892390932043737341761249209458166117462748940926724068719979706222394454928867283972579702774594498683845443308497226201642518279107346857564587, 48226136220791863150242853169436878736405622592175443644738231450813690735269227632519558748011496383998980611327640668136597328578577474180054760873225126562271799141735214, 199036504293556374108818308902071160235217897369970158994541995245521458040813105381660270748795294229613096829701952409535228779754762589506850324354379145402053812531087, 242369072327376061760810444973056021684801317895904653097256624244666612413079150823404069567511071217495107507711872620096337793801853651471243422264123381391903607486],
  [1423051472062083445252445677843611536713980155712162309788461835866255876709336325415061364712802814655127443835723752809480410870788474415242087225828538894199569260273266024858, 1147655406428267196630207706419856511027230683793297714596125056513596014893731723144963940508717769132983894571317598506482243407699445995401894364893744339404497115622886702129, 748863739951098611783129438593529485654687568997581267106777283779974935599988159078707214283407788448048294514128243516272578227761120021812513329400681220659251175458564253742, 323362102744920945741833592745915899903590798121372632243859326496044635348437759365585809725735948432854943099978637326412993137853472357896870629592046364954589529203408360973, 64358273231515829078370989791837291953963913839499860344623711568036741185103210534802835704017264109581022385753272596940374451572092724730614593099966478012132639026166101046, 3542133837577882281830679753145767136275702511312646225740003373319856200929716891054887784348055235589596067464136216448397647122420614058594887277981560913470221274954322516, 44977735721568259979039496058275542654608938057406320100397475281190918564251691212222034590088433127311350766886911143167127305486183981630644067054226943693205243150076613, 182731112578270418312425708474099953066117010161737176517274995923385217593691294312338692919467619113245877457272984093765344596409919138381592204759275916499571082887607, 218391892033094877743866052556802270733371652963042111036979700563449089583144315663240399309710952610091410675802788450879148620071015354081006532831884945642855623167],
  [1420075852399669152900115381025864838439405420435764827051768521531307166216599665418240258820773911953280562079302573525078355025308757422617231594029665611317113333686247537954, 1142884341952052040751065194597690298799880913688085685397547070772528054284349466220342849493104253373047353067926416354955826898305066549595987205528182682724782583990853342556, 742714473812936389368933115495975915222426626874670291554802646944265576196821184967788974769338704901629615424696274826048062547400307182632673724840290844687558424791126184328, 318195006458641861148645198876652934315721384999012634232604783241280886047792357007145958982277380322743314023325010402433287194827826548035052438268582316523768287771429582608, 62432523981825957180131027716467502851267837598598320650232998474198816370124982538260478439025573621244685664570511943856869121811260643252857435776125848424099895198420594094, 3364685931118643931517367987685687249794224281851795293005460996802411410065789825832728121420301327073666555400886768088213183022669620895403531743228638387409713008660436616, 41967744819453427399352274237897723426070335081672833291262418304825994705584877860066763602195135536930787206891330162990865853002182446416584510827876707509865273498372545, 167859942098085226524573694247050538959063441125540785801031657588607271832474522820925913954943227575736989245550652129068770041457524333361121669678385405473991227386667, 196930127770096654686234843477335204284646837299243013712363593568101694836520467277193477487247432322017809305054819601138470244896816277844639235918410369913682785167],
  [1417106592812660401104796425824707881181045060142953122550110976302917520171775876740067464542749305187692755445271973123572130030794220457674736698215132863773309155335376484348, 1138133571049233217064221899160341621701256978910601041129653840359738885451211779764966686315572123251840548729590258787492228969602634910217504693692149028114610286947920855675, 736616975582074740851224479253128952680169761864670030348488612574527631764699143320893697432803727525930698830246224421079302941690450648985049414779640192302559659730467102240, 313112946211093938548156178020470233426956737630890149896633664773045697653364828190442367917240238206484122032004543582207741576657581028899417503621841596467307954000053685874, 60566791423745155514769792279817012725038558136820311044571433325233897076641736046173163524937039833686970558880368527844691637252694521502291789036511200301481541662847067096, 3196747768410595387980131410432619267163163848673229288162642184397551128745293507365912657514834975051954521082141877154431668168274003586947009909810123275314904270699241012, 39177225658091805040948175741976412893462078671451992475650240539354653718585188392529702768969031245928117270861813830707752300621685029367205529718561307751316974141482659, 154288051715474381716686598991369430731861633736874136120228553997036217387727232204719676060729574633549081792401961603485982141870172591585666236634982872513732509592957, 177704753756139903921206534347563024011625203158698556491673691382782176404928537203349499949876319104260289505223490788259648716465755231164860116384626928140785377306],
  [1414143679471492751168719006186163263900183409421521113593192318803882116416270014925199429912599074017840624440986175705031996796533368468734303447258825841355147869229619421813, 1133403005843871806222647885403144759680650651771141151315386675313787489115103959690135998359765358874787400491466881725384538497068541485332844827125762489883602932584345333964, 730570800912322482431180757461088735846609701935212336607278842893702921662669722091581764986377932277251481505715638861785296490980889740697031353241222359987505077119595368994, 308114490236420669834736327382379086709716032012057947651995348544652293020864196010875382614514771566780592749722662205658046893561027044738577432256449908927562807093892410272, 58759145325118520793269547364708029847114093935603388142669337929609549262119144158097621429052948748294047435577435947094994972128232994105460450618179356190762528692680413011, 3037781183931055139036337804112014295422131646585533678785050382228272726633638079168908815609760667963308917124812965849110280553333478975458120226450005819000697168129744706, 36588857318880388873194482594246604992605953551018903906162236956434882129665017633911403208414423564336555618553710212237282742979036042106372714424552742511708958047157756, 141894032735589993054163327658309036247113243965197676120114391756739917667378892118768822523557704318264941467723322437044524363461214784864555430938176017334279472700799, 160469381049757107927406391916134026645233302497339791131823974265589599988966093769927663486642687736478089304231852598823251214827107643740852904130372862771147901129],
  [1411187098577089287497065775573557345441425351593038227194317818084417966973509385696006794976282339076333020649315055738328612609396082412139106862141777564685335106779991076714, 1128692558846023542312424513758579514139979691890165820685820384923360424831305564432495665928414312536063301258944452242849240304831553345664579903965064912417355013442902048361, 724575509330766405527823583995401297376888058030154760219490769659268433570655978842888215753526592574626013635541900431040311035100184227780373548239411493473253877716693021860, 303198231314012906914511463415782553728363302464206295896273873923358172032036693151233468196557088787831192092473053335056524294555342815055764507006918020072141793283320795467, 57007719083150152391787660718232942836052694485675660150465698283415211687967326168749155033082146605156002017552522004715430479035554824939105105985340402406253789218409145342, 2887279828292890628805788548466376897518875768958256147734441139990284356536306279489022208109399015677659677064230501744305441054143730245022378472320341365730148095829758883, 34186788470010385653624989218693574163726427623342841659194382403076872309303799228668962847335209168792544479792094630274464752423815498045786674664790547256380398086029062, 130568567226570620841774347709456740349996146233955465390576659447135508940746921083472849839585568641108977904283607586985473777868212563068880389684714737078294593118676, 145006242520451620861084132403388594604223552729928678555914791520770612044784682639689152671673202274245502132320534654629611546370612605983838804009458713741513121792],
  [1408236836360792650599268500635256646907712834362712215757519486656108586534718060838059976621955168171715224153315633967871066422496303285595736487857950546422973542402048661960, 1124002142950023537136841474103612384665486839214117197859185726590822901368094256589266725754131593043190293812559085663072716651648865244490398301931484276379847439582313480055, 718630664203584415682316934838494091696683055907690197860161194504652091693650760342870016646294221804279249979103618364789476277059888906149639422618655273025898165406929091433, 298362786341580391670611048732522938668954493988481968723418805631552329327187815163447209220355491180568815619251491164697132410101717819213762212523307393360160122809978504290, 55310707585324138858364319098600806963004691116385832027628754578579907647369434683260719860805611953748791737286082976313870711112106119754168461460366665934770130794297279023, 2744767220114509536626010014881474948845633940838543318447833722373726128746865287491673319648719083300342454593912725316743102455309455458605998939972986957165433721407514992, 31956504246837895219906631878875545012883663626443696019952713998068493531655080846937306528681856389385579240533783180031122210590237804745228595275454652228524055454520304, 120213148995939944072516684073903009418333036263721878635814320558361739170408815400491989227327246776945994781161222315343636940960523880652725999892627330278222707759391, 131122696084240475653578128354166880774344865110053428822050349061487359182723618137508262426114794917778035848729807938924292609006494602880765841230358615558015927785],
  [1405292879084297223023303810398679000611885551331789704889226359467981292322607406243094934741515496639609158239792094804238920052360893939930273244050744323808263898661271018561, 1119331671432778700301747995436990208330163301831114571509686264538928135809432220668411137108859057442610037191698559671787450173107195965745940531470047573335805658880007273244, 712735832702163535031751479749207939112325293574943169554900296558982617598280354732708604272181802715826411105747826651482502976428403087400731671116599600709726999585646032240, 293606795915737543065079498621597002367200629728152326838755389205088402777202162871854549556773862623391237489033717219198720645911140183691524442341187474499630025864889159836, 53666365143385224896154747322125160409107326771705637834879406905149562482341306653111264280637490650630957728919634093381886467078069719313273294555098799538877400887236449263, 2609794920597281183628699852949947189141357644884077623706796416241556376148365756281155803088663520389488422098286187126074479286786149280526192941325581197407777965496422021, 29884705916890784757396939833710588260975648540744643551588815462358058014948456586486305862627986900136153861605309119764561748764537506779798432379982493432811107741616363, 110738947844841454463523166560257000152645727056916225043178956751737220827496972784670470549270853936715658075712175159122821663512214455290775223208118478189266181438647, 118648176166160211599881739075780300876333529871049429777024387453996257890420972810264238263934078327692005564891662092193997843410692884743865451992131215279827617496],
  [1402355213039581467876181037485684088654916911678906739534775410733659609914022438987905385516221849143064442575343355954004581250056428974654144619527765227166307890197930782707, 1114681057952067820295000508658320506356138528761926060399645702364250392712703668911286756881953073597536242598617585843835038714061811017980523564462975939337514732098500922773, 706890585769520026252297825428804923061449888387027567570134171517074356133390992064987735735426913117132212776175607037907111257328035471559805741307649357958972450334042215923, 288928923919969939037283362000005359418173319508747756646372568370089924510319788852968421487705762371378784827398544990406756117571760153732092745047972927810784172032139044184, 52073003497851222009224325294742704665672446501626535654754674710322465207855820064084066274085419159070756999180111667112706983194490896440171111607500962771709021711806957139, 2481940822901940245290017126268125065565387074653684326762119125778517604623161023214204117744292347569626894462348089026756471225524050725070715406443913971306313161344807131, 27959202036599356731075649113819946217927541929034673211853073720436260903209265027402942339373547394455063241226533169051737603144778120998150405724351913015926004745012948, 102065800153026244008888372454134197392469381494080139818175219240738393856646345623016364500730560113882714625403456240720841331775218762570280595408588274762864133877398, 107431533240151533786462581449525403238638496992660026017249953456307745254404362468938285789438892939178877526624568435167843784323348048016352541001237562239259738421],
  [1399423824548840419584606834307749230365205655925293074243282079798691385745740479070598932603883307378701827626622678802148225594547411674847528300330459323004697326413717013606, 1110050216544849271911357179818354706101299282846424137779310499880626121327655247894071258687499616929715625713383117135174101785685137585540413612393617363780353621310368527602, 701094498087018920715500805212476915313982753824075501770024810114215913920732613449541822558183283847019331857720686105657956750094219596534552371054113015985259333435369320488, 284327857119850324557280725996328964196546149595787189156285306474422362044156251287511154455206118017687543054646149019647504504274647619411292016791983703076854527681603212429, 50528989890617642800493614142939370498015433361287852425646262976541337102552656364616438324089552078000503574773082378267332769033746943717038824697712718662432699437421354083, 2360807548934886092393890334282157137631522065546028174179003503711216638312963851308053618911763172483277039848254927748392076823054516313091703413672562247793881574316333088, 26168809943628876071432737763938252578272863071493962562635871584194125442023600007150032794914147166413641271222378772810746889522238161049917478403994612973306330823969605, 94121310958305760935082590223244321365466998256514270387356176704145569851248979760336036415590618857701108800445458052438177194210116056690807730417203021050105690204894, 97338709729621491838023398462649476532210288801665936808983950664945400859975817986012947014325757070056086498977997476729065026798336309399796051372603302234626903401],
  [1396498699964418326550601115980919818514099649704164217524946941078569290614238992020913454907018496057982138928859722030668128736381617902600857947110538294541452543765606666515, 1105439061625576315531951791444318094761754220029038661353828114215333542490874255408120308135091072849287604706687998421991429280183974024233114613117153175743024921764994876780, 695347148041390258218880870866882940246926112777912804676006135942495449914307732499260478530610311821179739527712193254681551510726537694173517671484700922512471328761038401160, 279802304765375327688936594084976027805955364709561908781901552085372274770505922250359589272008816165642853856137968890114640163884753027682817509317089016967867115811813126057, 49032745203300335126287998577984394729696856288079129976004533541915085123938881638633426970155927076566278672518954428481460528681774624308693724309791188996095615029894785901, 2246020946640011511478832495694703900267376148106213355650506285585406657247566970878780887008863185163422504578120908081714171154340858014230779834811839042261960446287874455, 24503266550432890184140686519650127673522088036787988291351124537585994509898897919425313398277881735921426253058562454571643856295487642221412101271908651974627349297052008, 86840054528838437521688105917983590053892306397171274358057666446501013497640055731270508911498394700705166631096109589745144703198285914654794736782893487996419360354844, 88250707752064311844985889868180932592567341333989090922645326224319021530184553303660129011059064508434992232630005458144963971103204139018473401480049584749847624968],
  [1393579825668741445357626937197442928644997307346546484021320147107585784507644351176444827819286352308385977129048303886076797402119906089361884984296638615884086626833534511036, 1100847507984519953924538773772192369049552738144188325855966329225479558579611372853696961000718689433890663297194391381302571176730951622162462668736738978049552623645119424080, 689648117692039370044982822581774137452340114513652031689082205397926214681333708833096970368083712568197667166779091219129151199563790823490172777464352513733846431924294250532, 275350998200296373596025031056658257499192147097041525965432729266067549872111992529957513414345316401086707374156566648577955800388801188856068231401050198291810093709918829071, 47582742159044178927288509203624668286221657830878110516225509210179391333232941523425051949306271679923250680084548329695760188169728655858655659417239343120498178385313955092, 2137228681344114857596532371796363095702423890922713741392579945829808278855502375936001226123147246279264124929878522560067383119256536201980937404138627933881463261699180273, 22953147513049944129395460720323570118212596643936003931990421105021545905055994638678901345843101133535431977767749733078598196755450639080219871210976187020806903824792791, 80162862022990943345330676973108947527155864188789936438452975195958464552033171089894745509873676119206634436843529824431965967553053459484611977387276135666264792891302, 80061810345990071476197533274723663350914941224350567360810351824744374287862612877939437949991481370750993031997415639262710600777332334039202490287602475964942769619],
  [1390667188074250986183583156469975729496676003339867893463009676936621338208453344679590422207250638740356239972842708997324629032599465446751763086841151052924966515585442322557, 1096275470786099312387041102954339042369618202897689917807154504037949866877457010073932704898634699722395994854446546601783609230631735868869020908312954599142734077586486302215, 683996992738648561273623512354018878244098636384291741505509066989992239935529538277410278545160767739946655189186165093970138997848029756644560570640429163487368321826793060675, 270972690478320552855293096913826536266114146654085006099427449330707857386145718957042432562793001045183291240583735832898899774918798193716329560015378998996077085281528398687, 46177503585605292586965270290066816596023641671389258750563154449711955908776396408358777008420982462750841875321606742589455572299077203980746195005037260781185182075871623905, 2034098915126250575044682572958728466420799436604367210802266750871229247647229990644039133525721001927417845800567609733615202127591936337950542095251842605841697163759938204, 21509793945744621270113409817471316031414123828696764530332912974780754908351528998909787657746590287664654488690162308166002069233047575610142198565970453323127461137253201, 74036186222029363929546430537710222138272309968205079737693667469155794849692338215568481440540826085710357255468785834128799548834375446851351333073401774455395152718459, 72678023085990491844402904100400237123436070909939995137853092488579853944749448773840875124375252091195219372036701363843404365601114261913511383925661425420227189380],
  [1387760773623336209077793182407884817190681671842723635843610413456234328038518379246110848753427399878446495052099325932120148868491827502033776531542970617087135512862207289033, 1091722865567219508212556601997994813403503746251003038259148255506482391582032699085071672859682332384087554271735774317631262481317799120825205663546889961616375949041371143621, 678393362489067572222376770969699833561319640333072378135524445300588746879031201413061808299540117228936220384618829805554911435194861550879336710097558353092619980338548659449, 266666155986059425979554261863391485858304457444421815067530789009922273786858861179866708192894049583022448593003540057573534602092874425205532673358480732079826022259985089590, 44815600737590780300669849711391101691520044787029897796178641594254163899623270123730230475009896652457012433384336165577768457862527447451873733608189749218574908876514803584, 1936319068575586335629634348902387324762185246339717353177429625806722074698083527237298617754982736021404749191471139498678161251332307567375048464330823667738363161867508536, 20165245938182217226339384255915650475512457520007749084854905809032355497003969856710697263732604892186553368861158731286827836341823162625830970849139602004350965484481390, 68411534533367045617833389672545481203708206097508177736907882463482493745969201471403384851957743568796084200043303857245877236650066157444335273434438625341367141635187, 66015707505195206573730986449388348304049066598987693769254547453649262244282251451483133178928227121853000533400429282737139269567440840280438246218004331731624148398],
  [1384860568788267670759905736978124779450788004013932504457625983750349427287580276500092446135596609896270169584552278859301640853534084937311385021985216952597863961702421795019, 1087189608235616975608889198881064147632683521629989279634313697709187301637994074797672522888903079203463017872921941515956917884732618429593854008099735452335193504775341496679, 672836819827490222622314870582279259437203695781991444083881588664606336561533243504220903399272897398060258497031137156772515186174592625761277576665450324054378954669721329347, 262430190072605931443612810984928372575977750392281916778296481782434141511991063656211556024575958871349444575140223070654550498498652273365214971829242991616563465118700354275, 43495651675813936663638843242599890669597255022917017400313889386472888033592564108850325185722469497974367872735194638811536578906072129153965645512613641424165192180000545848, 1843594659670354037689090878120320907274026647168848172656836984173979903404222676210590025008872992791537591241977128430753508333315349260564703469909835243077537896687263876, 18912182208604824363845516343185145139771302951032026873602367413734683931576676930191023915109813573729763000894728546391060302015132228691473607626917955813373223719380198, 63244962520409505546039086948162574209434550015345306227358494105313279675772710881078891721029925445067874813764672234184657509905834417567109202527245520679834339241729, 60000381616015964195471076049289193295718800891823631862237250374949421892267779941718864782991086149884474000775320180547056559408216317670331400311690340560985269679],
  [1381966560071130621599404414361698266938182252657311645335751667177348442003677560278144121804379089680383196591648721642736848637673617617551495843723750630099895118489737020849, 1082675615068212212359873196582300062532181129068947692440444295883922997432725353046011636130980095605856841448455950675103450881695448408293015694774235284422188487016615424590, 667326961182914665651701979959445753125963615572108216724792214896947922994114657087243551307392480763954063125675698651598071418813059528839546289173027726008830115981038935189, 258263608685621710474932848706931193178595689270828387887265343897143027481816525634355714255193263146858545237215368644089688942735206391173078497485056619713386276713645167767, 42216319701794105436610439009617281820530704650170295209142109503165482342213743596570424800967519676062895179127475419865958624434284512265878517878070014955630443616849100659, 1755648214854070774331807300958366548779636163557033489176523927800762532443547192956281358624021430084864386232509183646442890422129525117725639146080422443666192362254416573, 17743865294988396956681051770564276201906080625053197071088724823531868782073885475113465442798334303546010323605323231700420879581133639197071980834063361668534817046289423, 58496621139728102434606392710116287472865675322461242397758920710732234592960368223386494176002720483412983959789279262207051147819339793825805562325795743379329420343982, 54565666144917439742827412962857291999467118172840839131984147680116387101878896928831169844727285620798842011808648886408672043212816849839327534681006640915471269394],
  [1379078734003758552435201865010477811337307212257788064231151263986393379314596127063398945195796183887879043025323848667673136268740214536538991555025714977959916674858834346051, 1078180802709469914669253858031132245625214676027315722264183591673894052412742801346043187778264730400061236600510423122748427671965096863109615516260557257604676632383787026463, 661863386497884702251688514176884931816128864270350092523233356256833119709876371433366976199147266306312016178804296361041719639041909189032360343854795817771168448037640751280, 254165248013819269134895807991888539575849888998479939988603079757619675666078582329450241916172261206385443898750574327676523783432316443754979753315682073352787858132022771800, 40976311845499158724299546668376006981349859598603124928093147589162565841882555084884479823512075576647620378410888154467995981272282215505431345092048768719390374592886932771, 1672218247706008632682264452329776516793684236285767417272119156319850331096177903974859157779071728832025348386073268070064335882064417423641250212090798559838723334212692909, 16654091747328181478933291841476531686039075814515872501601001227090573148821424361532563598934397197364059987593185455042161955972117711880517101257166422347097188918082356, 54130351675038761078548684464223499869215654198736695403600871983888745857985374919455071051360190494682641277980253771863680603954655487157789823370946902050089941284292, 49652357955364517854384906547930347424460809917797882240758150424806894501729969833961753696190252675203396418886813683486605617553873246423735345801438939274133555890],
  [1376197077147666890895571697178420768357723466618958131528538602511031417719194910937504664197640145211438679384662188220579153726165752004893426837206451496914522312362573630894, 1073705088169766466780679856446619886611465623385527867759644076783354776396389098299553295145072239965620281991647836883416272691963241747237147386769242782606938741780184978558, 656445699197509629237049989220525094636424902901641555801179258324730461535861844696010105202193855014147943052428973333468822816777064786664496122682802058932038781856143932860, 250133964135725467477625290545720184757120433987744388347456329520656366184338230887466619739797097757832425473502645119081482323125497882984602763693578330175886738910520270306, 39774377404494909797139697622736833829840846615230692341357397440431519445373626705921322838311012871776409810906975672089387159656753191639905320165263621218714314838916953612, 1593058300902440934164751467739382206159944004209494901850455504182656095016849583345338361593357000458958110550334122879125527941341797798535344195533632413077007090077386860, 15637146838840193268750785312615674145854294247577179166415042973601229934658880017561304604770780117619325907747859532747542540222371595875381745893406251008444396872742749, 50113323065491314724669745785428290432870643633060381174545416482755899044687732266853898999867719580851186859815217359343137494231328011995134490298208080861916159121124, 45207614593175269470420506670559166868983445250726704553828932677301074121632826073549749685068096605307405974175416294746607791587084922552605655240520265129173914191],
  [1373321576093986846879446666443974745806308963256420974376362042902959625452237213457314603638056201741316326935823987582670462451866132383753137262738170112647985472701512419634, 1069248388823764752119455624276153397886110490120471691668716763098719908729795762277211533688933798505699467467919339509072802293779320179077780933813671149578899046778395561606, 651073506158760117593595847272057640209112984559703405514231519557223495261094646177806725997957431527688133867797364763019283608027662113851350867362190724744884758757603912236, 246168632674614857521269847245499294111405647215904838481588561358716466538764968535785386731890570579024118697574140615520520379881801527952808799245632888639672248574603160195, 38609306532729783503817974815844752568465733371050675907330636339138695659193669919300667901201061104521720566722881551853891188035348507083736326883822976046274558189221223676, 1517936047444915158376677203776759580361149657538466060036841215445114929859617383234168446196995148214272943760042568968210302902825659925218532356151031633342248716794346264, 14687763362701986880494916120182121608977764811545173825227551861652611633692603715291473634938501251356161767838271211600375377166397333938467115326522054276135081516160925, 46415706946228685981589711676496563606930128765028673621898080353552694325703926277165769973750183891901678203306885077686214743262433474790599590778328935409836836793243, 41184236008024637228708819783647138140459347331816930951234294507272970998248356714585184300265281373514861075491365122031357194276689505916622403572830026662448268573],
  [1370452217463399406860885421930908986440701335083736283057442288335459430211025443666498828500440711719577675886838249130032974480660127921227303151309384875798070108651728005961, 1064810622408796252853097573634349324879441844984966146080425890307892308945241550095436626305913769279196950493746523160546289706389518601467631284462326500909264538586852165507, 645746417680037640023970687783710904599444626214327947000010678442961765612417585372061268779219939621754440445627119736408741685742962557534633388321309448342265505561539337420, 242268148459503387078315855916781048793420743858377058599283404025257649230208350727235393897960190073873938105830351438437343845010889964262000913652813802287060186220755181739, 37479928877244825590057496483372248468535452712783220386902397250785008747490039252512523082231672651728610054985844328429958087314805577861572375755374762576080021270246284622, 1446632447393030140903191263768176635401828351744994185111298418613327214949057446638518760187944631630272589871309954050874950748690531565172240182705292738819057539030221472, 13801084124626958003957122191307701994057612671754722409766328827170851385428744614112867114984904010410776714965744621428497249705838410501478048527103441883031729676541757, 43010386263400873918419223665092090346458366090566057262390927586129574617808017060885534121631550941978619663135476840705879890515565154726946353749662111633871057707609, 37540031332859921029908529228721069281097526677275952415471844755214596513935964720098534672813727559428296587317462241935129002381094233040988162793239147279887483282],
  [1367588987906069476679281999874363157725385005865322487868136197512405208939578482086911587093922876274074620503119692738619684646417048205686991518014663245352810796131173056707, 1060391707023250404918440763356397081817011920417721333648925569430939139889081785565292421237298769958110063262152601956231929692055295475966200918965130248452074419017596116585, 640464047451014989267092640251971558684001477967991408070049893467915638673923347701788331728870252123759591721794302363603618082962640689250476998322236818950859241136746639751, 238431425192094945831598086610727961230406905462066537915968080842609855164116988200569449141146817306563399472881172634846891119622327259621759114903544290399778833064304811499, 36385112261158716222772366003806438305043908900221685630581497866589574945794173501451288631023740984510807875038485313450066705621690070137473394490112255222047933152761134169, 1378940956583167634378594070736467465816738054121199579752157247799913193139571096362483623182481792381177816276756433915440848852423957945073702370234542963807731176815264767, 12972627780640063751878965646049898506156027873004726042055756318508105242800515553358850059574935484815591634541075223693206979722425710397031094860185511621383238136775722, 39872693803627210822237840860348570903336438747283217687339144368574355830143931724645567031966941666018395353810668019481267174807022579212825345736851663119117175825694, 34237260181225524457829553262515534727580269713909987952723474693694401415067527807833911261582333828619986496353727301079481922424270661374564679736711817610394717805],
  [1364731874101580172478662405313911179583613088024500560665228458448254579832434967591686892948642349589622646152391855621020049129285649570612022425775629412468305136799270692132, 1055991561124971175713055045111813105489957796213169310013637397117725573532043050604753271182719620441685249091067435284251360152820809071430797862043782127643994978036961954182, 635226012522745450975313879932571866445529445544357724170765161284955562334747330980508952521258706941492116747747226701569761712075316612579914572326730755247256689323375967619, 234657395119575154063706502754520163405605064402230699416101827508711765059175306850337498795765152251079809375222345009469217545409398548278813227676009210354776614166065160951, 35323761411334940725704271627085943713859401527253211481177862056929186823846084124184759505432001949228634366678402435996160660367651529275101263850371380892685158262057639699, 1314666784042502214762075249568917994077708629846007657317772486778015173345084064810821184989272201114502354818957335469042759835094969745891146045470762994956407790263595735, 12198257704402009826587428287386301145719632925600367581355934926797710867124963850425494387632334744980483004545021675741077707239935808465055911605058827450871780893606672, 36980177397782396927991895109338367801304536454592174086256138084009582505930487030000160080765658798553739602224169602342571683831413916080558051582629151341167171910479, 31242139286467530009519350996781180334614790152371164218317883871845820070965714232185110602855727596497161236709619341572483776071486960085293114840443807107974559341],
  [1361880862758867259460181004766483895932928967139656231667899598655416969895864520665474865401499048602634607750794638462426679517324199978728655269784304498363094283118232539814, 1051610103529660831798055209016423989660020243297393179430426162967320551437970539916588583285894823006695309275571229753128410716512501599964991489571924847841452030680255418479, 630031933278038216989421726527366303563453005758728644039996815772741385457375200310103405217367604318142594091554907749383736356312389280881757447974654666591809176129948283034, 230945008713148683790075629698647824506833326525784187303857928454802378438043270578099539525197229122527975691290493967862317930862958413895954322977020676983716063689372978997, 34294816729193736315871261288196834425745853982446664180846994526012022806678682564438058186747317368981635738393089818058602504576824579508886534926705164693871961916548059885, 1253626195020466623104644436212258541070562836956256028480349047116267536578802565732584472829881332011644433547020407130205148524658098467792261158826477947668837399352017238, 11474153599759619545478559605920241260577366833757909353049109490228684829211703853186212060585094001556431585337595238237733972278762230389651886381349892502965449730346027, 34312388928293592414713015357278065503897121793913005337720884733303234377465437279987771261059674945250979493595743177949700617285992127758019676826876451359805215862264, 28524406486768278442091219838186199565252836581107237973219967071371487316886898824580058369419516493785624411981065857577581436404302052406905093357233713110830715534],
  [1359035940616153738112696071092276488288415088837371428543289562804001270631176079469773183933413911402173921067218654295797247293458864034150867238923920497387892203106833288450, 1047247253409290864108031331085828463004391065328301940407797784989884185530501577857503823344215851220949730402061899362979750474237236123424968190866163284783752987090500680929, 624881433402097646706683326508721873802180100557026638503638408055431952686287522290410209571354818870982229907179740112723358059519846495983735958327843361431043422461459375257, 227293234352218257339126442080172018880286566715727080173658339736930858627491169048991683942605557765556177678345772924631161388564758978230572915085966294329102560693581357484, 33297253103184949186892467181195440114565045798942578988173609336210906890368453981009738459447897603636186292797423489466206462284955046581790399393694067611340079305425310661, 1195645856758686731806391146877532490049849868541868531310563297118764714478922042944467113105048375487201363457022946250135164735390895519675367088301628805534176797380764790, 10796785602278018063445602206334671136127109733063213239074060421923097784893630220340079436891344343341290489763503459610615629158908882917458308357134904978101379702124236, 31850694594257063920903099346334020775785239715210735557654093711454356017447455618004967133260589206425440319304484265236560482733018174086899256264585926780073384398067, 26056935081774310644598074961957261243981836990136282502983114621897972860504886676151701039787480786391883593540909526082515951988761604639674970241566125742728120440],
  [1356197094440884577587068680338312709987981816604073130653535044637701019330000668665027547114628509472261061752139103866535300427468323638040308438343710052740732427892612083850, 1042902930290520038311786547288838722596750091031952753906334258925065110315065891254454857001420166944217347368697510757080086744451368458873624567649552560989032876306615889126, 619774139853424005893113447557188735159149055355358882707141547574374726438637985662844144293966399745346894230183347128852009045150620786580642562032739126461004493461329189512, 223701058014105290283880941809517110504160484181121582117641606347521729021339704614567170273973483571401695620386747153847455959569351513422739528145220619496451689976968162848, 32330078761489570752547806519450053473609728657474703473673437143550458828742978509562026779324619503336784395897604194937907666791308111052134598713703766148804485230901457401, 1140562224306158143113671857356860609830728320732697061614054149100183853199436155555343271053104144693869206701850389655655344429176954841204215547426942682024885479387066178, 10162890638686765796458052906285972403739535436120954124744923101148643935404841975016790054552569056189750161748552944281186809002506205250887076840815253631813992002847406, 29578104175152022131940338154681120684285361605693654478825687955675338708369686917927235482242267261946781043728897299429953200705287816371983245216179273461864125727921, 23815392472288557453285639110683049708306991582728846610340260281269430514488851023607488325462608160194392785010077364621390845339301051786482938293518272621951436474],
  [1353364311029661595880592263231925137702324527098999941612643289262390659446308144705018358055752121550594308870292092531568609436497889416544611459515655638495720804386016009071, 1038577054053119538114852975198863829922813582647593068249939585549550419443639300016091265029582881670031382713384059388728542584386917123623481023413038047769078112497844940283, 614709682834973333749837310070324144589063411113323912572647305530210319522937342621903863163100509066343398621104053189845781865600764196256471428193775193609737833233011071747, 220167482969213934664699037788052678882698897447278841522754003943542985348550999472255190571536632812351001130873054816766083703521553048701499100170737120889022446760421539521, 31392334163567541910591074333502853339050292217339946646468820369273915012422014345571762047323837850752400320796197594233872199976321248839398103868637453314736929830196875915, 1088220963859988307315658074597756102468445178627016087758821467390394384634131087363555393912259249360295002536693647082349875716216112340795952855028355343321892630665279460, 9569450835759206593604682363669103679789111562399005953230150742837256928466290528691869535092165825779409204732823172008045079828623601529470315745826610353184880268196728, 27479117286559291417152058373813624129227190042533102227816892078972296842290938503706670407748283052707107037652045933998571058972754830712271274537649936769855675824515, 21777937762963711818541861510520806734462641504882650585169605096535926010322777746058958099440602213728654211807523188268435574026299239813012820789542500017717537040],
  [1350537577208178486498721465192196810617638583381188623466945512470458466238981218552700047581777546443685065956224004647191687403266660941124458893985674825935678034594845219785, 1034269544928405169441365592644097074592744813225643017376714452800397795265647013591392210916695596951102299508919271163017095423221621143169621116171105700170387923272566044951, 609687695765574110306635759903994610429680096470273767131851167341801122919442339601874119163334690823372613108062485107071716415470213526604841477898493279649676742732620266570, 216691529481542035247356706506555053085753998438160813555910053661375962032813484065570415351056135958604115513571175549244654510545159209924508370411347325461553483220022694503, 30483090929217484102067598911230252428836678938896675059542028001211475525035347708810306534081199976867448474216712655650854946544075006916318799719459105350559689437579629624, 1038476411274188275980404989757732572136179005538037305574775573391768460421628897851878530248835952335604173387627336207265541392101798291486305819676886216280077860648720917, 9013673790419351213514692970167939066557466604440542591769306556873379617021016304059269678561833154472282379825637943924969838975099442413369677377644153853573183797403046, 25539584844269878386183230315828802633853459865349045867556770842193319521748668564421086831005342415575640236396113402741950206540716117153981847179508660478659264556886, 19924953675306327127027435866226384540721576577949104930941528759072973704753675227514036112198530899704104604239182899261041058982690410519454729867814408530695566914]]

end TNS.Data
