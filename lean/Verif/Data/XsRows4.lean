/-
Generated by scripts/gen_xs.py: for the energies of the grid (energy in 1e-9 keV, rounded
down; exp(-energy / 6400 keV) in units of 2^-96; weights of the three reactions).
-/

set_option autoImplicit false
set_option maxRecDepth 100000

namespace TNS.Data

def xsRows4 : List (Nat × Nat × Nat) := [
  (252582002696, 76162246335084883100627899272, 8618996825467142019187332543724172406523219192891922111193763750353937093201003996162627717135802977657126250343186658819578202511574693930116364024672),
  (254334576130, 76141392951456203096448427002, 8767356708053801004630792741457579587690731741319547101774634255423644158214603511237204616621219674433363481242741805391103114307332012419540238275799),
  (256099310025, 76120400643146250936772854152, 8918376525204863155080354513783456974510945202840859022885775567442449006792265489316401374654149248075951767823085564516780904948168800794707002893619),
  (257876288759, 76099268524921995711894028962, 9072105762683536494567341268960867055610312041632381273378711853868852095724778060391336615635819503889766794558519827407840155766811071884981518253575),
  (259665597293, 76077995706500400247485114394, 9228594860953552532886668848190562144274375134536156677431572676967890141099877151894723628010944938525138806516904777787298897499378860925667732416360),
  (261467321180, 76056581292468573727316217360, 9387895229041101681283895203618723934887569115747886794117947221633607217709369943081164067626708841751211093171171787108378082405012988501850279652782),
  (263281546564, 76035024382323198816875659242, 9550059265799397170407686156487590400045410353438481849278466740240510878052815028911163943542567479359853138307217626751200299892005148703254705332070),
  (265108360190, 76013324070379583692789988154, 9715140379633246976286254255772879204840877199396329757561954423848852714637317876774258039095622401014420484372176525347387045073085017736897827012131),
  (266947849403, 75991479445811824318496899602, 9883192994638722237188351171661219688341607413969565431307677706242195743563372847050171630630991636400481965542930742295730760728050694339644684601103),
  (268800102153, 75969489592622025493369492137, 10054272594484623672830054715856078202255528673462739865144258669112850290163695023593414163672353590910700664940514111718000862294088557144270143749727),
  (270665207003, 75947353589574328123107024257, 10228435727356404159531961780942404692510661871123096977003366551664560500138776235637320168008907654264629355798390566382518466577781263608054880963236),
  (272543253128, 75925070510236180084411590123, 10405740023616402300437384098861606177708710904359548200606330945118188178592472780306708305895793529666087739372043001577238875140873625000101206464329),
  (274434330322, 75902639422925019742470187866, 10586244239239280947338520626321542650947213224733640523146112365452787602327952563886552763437760716278358554507760598643066511075525640096923926531695),
  (276338529005, 75880059390655421691616243054, 10770008250322654947983324859655190873080264731013022567440882278396100514088572367289698625675480959992620355412776643504769756838140460252145067753427),
  (278255940220, 75857329471205237647045463378, 10956819697901049063454135665625816736776859227670512279087094908949849008935861774149190466876366774968768200375144484849618633779218386298301157346702),
  (280186655645, 75834448717004259825687496102, 11143616594116014082668308847012550082257813538112383280439726052430717180914855095074114692002043521006020875895875128041513790862508595531047618899334),
  (282130767593, 75811416175165615098449463141, 11333731961519590098953058576527627967121477875540789477833327892759167988655498149961856344348958942885951756964530539496912869242087255447507029401751),
  (284088369018, 75788230887446439696120135221, 11527227040805408338941548084875272581516052788631423371296684099932269430151919215858974846691885379264922203000466321931266644171343432593414897525114),
  (286059553517, 75764891890256372814748484458, 11724164246524476678745011653424209926493529553461417893953399866744274676681015630643816302070364859654497851509250715943259294055363547381294508900261),
  (288044415339, 75741398214583591395765212052, 11924607187347749446051905824000327588642463609677942715362979490061757020317829051709392425321674868071558628602914347603909039033460020279237817825457),
  (290043049386, 75717748886016034219079933763, 12128620677060714153007872768763802252845866105233845174171091047203258859615858527716855708932955165086703246095020547133817309182169792731839604844003),
  (292055551218, 75693942924715688080520601507, 12336270769947281997544647080977400838045695281024882926263820641599330368634453441174906290949921493105409231016032106901687864898845782611077927767803),
  (294082017058, 75669979345393337790330788557, 12547624788106945408921070857197005382666155426024607763701432393492345838458248400021805241516186435012839365484855056770348374910996761406324212682897),
  (296122543798, 75645857157271965579402199433, 12762751337032837529423375536063308446469229210644728109129515876975630894387268938542964355394831812011584795381725328313817605294707922341371324259701),
  (298177229001, 75621575364097911124799093291, 12979250312570328384151653872054689017578240848516126924182020954793324613071996071230909860954915421197874540629957234585334477842036406933760193407970),
  (300246170908, 75597132964093382661299137903, 13199166626623947179715929240985118064745749198363616066735622729757050784447137459552793301423471586775233960864848533075265474089882735977256997862893),
  (302329468440, 75572528949968539612725248777, 13422966496826296764917735179457532597982553290844157672068872149564301553253927515211516362774657581935289299234716938832879256715719926883655099611668),
  (304427221206, 75547762308863170075822421774, 13650721216318465987800840027098652761760547620378159613723161473090888164415712949490741961641860806933236533786708949794354605838492476825676184890966),
  (306539529505, 75522832022359735942662244009, 13882503429930039976614236241992384176244456633678429125999619129819095194337760822897328058493167523584440678490622552655737028167819194900822951561006),
  (308666494333, 75497737066437866372693823875, 14118387163728754321414466896998431989275318312450077698689486100709276887110471235197106294612993166587409436243283629940293306167346705585763576698331),
  (310808217386, 75472476411476574872068981697, 14358447851677996791541894565270964926693860993240527716927954997265511441097482015820297196812729680822216672837367352946998968252369276009453707287515),
  (312964801067, 75447049022209786622487361166, 14602762352955243975479278070632632516495636342042811518194160463216863177531805263542694820818212318461219994840937472525178672071596452134377422287657),
  (315136348486, 75421453857764923223226380391, 14851408999397225772905162829256164444525982874650251012231655812929267055937660159941983523124479485094265963848108882266647808285509918494677003686832),
  (317322963473, 75395689871548742865156765160, 15102758698213786863742438886525854956819296922578540780371050170061967009584217713091814680300748206111953629434803321109522410694783212782051412627974),
  (319524750575, 75369756011322326859186614293, 15356858976141666487859895186557000223757607942844631019583004513432747157448341219658212877643665968587340826502160523872775865661184449373818922457709),
  (321741815067, 75343651219111592580503415977, 15615415534254561001843365298789396109213145762375790607213017447949508478467052760706161341714480892166681558572786055367729386683589227903226287037141),
  (323974262952, 75317374431247945037411483238, 15878509666389434996388209975633190445194442189223326110149657986879756784246633509805679190851528081893420826315867535758749035036726468586935523602362),
  (326222200971, 75290924578291709767789794759, 16146224201239208885415815528996754237704053802349902229057904720651038238095301362108549418120731741634348360793872158314190484707980113737401082661440),
  (328485736603, 75264300585073842294297019460, 16418643527932322673992773231039881392454549217790380177667763586026860158659013702332118402265469990688255607359603570749872871427568814631289029985956),
  (330764978074, 75237501370632268530878760689, 16695853644492179144140652206909462533154888936313160579531187786780807180834945924303306625617054547516479045888194655997058664809093551381193668711777),
  (333060034362, 75210525848195896211949996640, 16977942167138243295376982100937083634196624201354508814894454922472767029517153612435391706998842565891869255175333509319387956882886337606475724519844),
  (335371015200, 75183372925192692134871163075, 17264998364802163024111339525596220686648475027578930989915718738525291423828384167034117777791064096891062204681987873566599506764052980601799494398285),
  (337698031082, 75156041503223055902038292348, 17555778497953496630860203664094148673707900055807890124371930096015447879451290208798723128935690623028989917613441900958003481007522060599409433288429),
  (340041193270, 75128530478022063098649771950, 17849002148076055114383420916659746132462110419886456254145567809554996939626511166684266232450747655274194960931800867674527544823252679947313210010277),
  (342400613797, 75100838739469287530612686911, 18147330933682303883549341659661340218042007088977886768366329724212539036137390124689135486943468365579381506774951273694183038603932991951757901205556),
  (344776405473, 75072965171563976979837676920, 18450857368496987204770372264917809636455375445668819806406979217928698650566504732958795496063638322700761951610755264309566562381088691029592651210822),
  (347168681892, 75044908652389131196550800075, 18759675704360807278652666035950628015964040126782425085929334692351605819394958289536492234239049762175915719978925663112630240013829537291677239495446),
  (349577557436, 75016668054111405398981436741, 19073881952632246045557315286551402461440835626727114659288967461298570260727764539342081436072881274824555913537188022972719146641250946247665627068713),
  (352003147279, 74988242242981602898992627325, 19393573941388589786345246256108514800596629485138963875096954945131323995925953640182963799846995725857422752455811664329476602016059494812718897613831),
  (354445567397, 74959630079265488062306994749, 19718851330876451590720896652990581844788006202531413909620778467093014899096889874462351051850250523664102339082535698702573594623009156082358715690238),
  (356904934567, 74930830417304149518309425322, 20049815660120355197894745276311845371375271784096118650875888489741988029793715712395746279926758289440682585563599943330145069513844233183050207299449),
  (359381366380, 74901842105410989182887148790, 20384981606733226811559842160362293597249525639722530647448964451810684338233467778316029548697246414322676708470865468059214905774034563240460722963558),
  (361874981241, 74872663985921655831838648969, 20720579520112772515571614785581964440741712212353659550896790736895391360869194216206334050454084726464670185925014130212877641180640233313166866658802),
  (364385898376, 74843294895162631991610556013, 21061935040001524233914151564671541013449800364914752919702174843233875892179354290615616245918794698366427043108310333067641771779760517511486308238359),
  (366914237840, 74813733663408841938315778807, 21409151069287453698128704519381725505705146485024306463862716678918603134778005144713635340531312050633386021829902851598510207032123482097450363938646),
  (369460120519, 74783979114912116349439409351, 21762332426310718335280068533593015368983177693092444887775414065363377588890990111963239444157354792045143405188526534400755726756276754329357542826889),
  (372023668141, 74754030067825121038219037408, 22121585864609257850019117771192714226015565879966522564010030485147352144634292307950892568027669292796484995893796863243911322973485527255322227786255),
  (374605003274, 74723885334277914817421768701, 22487020126068101056189550946778454544352268163489037118123181875415039020171189195196930973149519459665986481610659536997127464191013693976401220588649),
  (377204249341, 74693543720256589869482327250, 22858745983977851542881300766461876631048174112714045054820749586407690824900149196630347923208175149812825445067692209411873618355098499523811515403745),
  (379821530619, 74663004025669546027728963668, 23236876245963693058965184845422633169834641916095308313387551627740002690334114355745498422712028959672955068836433130729790434220323665195599769081371),
  (382456972246, 74632265044321003574354032662, 23621525845601044438801982203564178724524460941725009178812435216086868027183537501249350489189033229662921079695251168784529895546971053305343246498381),
  (385110700232, 74601325563838654261413982669, 24012811847991013503354696795455845989278806582280425044973910849524219594338669766274216657779823942777560610139455188988082716362893739776010683461227),
  (387782841458, 74570184365742020693181726595, 24410853494024973472537586435326356947862453507780724048211536074519970402710765066733930935703089830345188232079469966816395533612879985303000734303430),
  (390473523688, 74538840225359956498671213811, 24815772251375307375843478581254234933726671707384128465455983280716152907731286992095435811750163349816354521408842739794824684412206920324891042473216),
  (393182875570, 74507291911877141452660862029, 25227691847304308633754166522411932947779174911311607783398633349378977885588331191108192457150080192724194645976682171021795635839130650299278683070374),
  (395911026646, 74475538188276465430186786146, 25646738335323799151748444678332729845329958809422912757272177192144427283503061419691911640107057455710854112913850335405343497001687104494908018663950),
  (398658107358, 74443577811328833962918080714, 26073040097477645132059651518936111174403942080261587926175051387325163651253713265059863641038812549012724464076717429299223963686988674786013295007635),
  (401424249049, 74411409531641892226022987359, 26506727935299241298606109351622984170597002854634335535531751114959138952680011541486729807234961953117259272420549995325347344325753547700657196911474),
  (404209583979, 74379032093535064052552443406, 26947599754446472125319303053440878239629287342481580399168105642043926084213287736022447016451231411525421434337367290072092573892942227362317509911028),
  (407014245321, 74346444235148027476714351207, 27386881369216222375018084746319533608348088008194077883408480382011887340351527706589717325010459924973763994555862903034005726673329663486871083005979),
  (409838367175, 74313644688340687209570426954, 27833622176431133705873418837998334089550355283845128653439170502268941684789043426238737679624766606418407613305579937858757266438469666420605564405392),
  (412682084570, 74280632178733485793984974848, 28287954166089552600525906552127015304194424717203411549227808686245691734148619756747814792261323244331992236080861315946548957865270790109978839238487),
  (415545533471, 74247405425690411613816495595, 28750011780684099397257466998311239203775130315410437221307341729959890424063189663014551256261355253559160391368651733498293778369011319940449245969102),
  (418428850790, 74213963142256488181390791607, 29219931917053442239088236716065832181249928416172389711501200889944500373534612420331988241501723652226714541801933370350734920972116492060203535746811),
  (421332174384, 74180304035246942565982618593, 29697853996736868531815461454147693444397784953338881448169909706772539780281583222212766128395786989241698257141461802292660445031637602823974078052132),
  (424255643071, 74146426805128436616551845080, 30183920024859967372923253193574593332829181999387509108129881368562227622205195507448310103579153062202420017329761695389993485013189324932210418239940),
  (427199396630, 74112330146086756861613679812, 30678274602279937719582598780869330021945253862153706996380259513151424559893007299976307325353725666729673949646596161230336276290337721315213378517668),
  (430163575810, 74078012745991011145090947597, 31181065010849736105556981053729488881160242139590967910585299857319192612704460360374842312656488748666678606478985769213405226312130984323376313586356),
  (433148322337, 74043473286381938576619403775, 31687091409452838603761111869450000315818264233086322944619447659736775874206211925907596489217950905519427777364017031748162033850384637633401336891481),
  (436153778920, 74008710442472703833209210612, 32200159821357326437557509790897906616340338288091490588477773493813900877667144847372963334810095323328943437225831235598793342906022430565774545799323),
  (439180089259, 73973722883127471916514495438, 32721878162964186657474281396906321796307280948665440268025571734284330587674195090834691200654918727695965852583462130660960835336835586387699476592908),
  (442227398050, 73938509270875613732749300456, 33252398438506672731154993396168158617550899684820491965291926210807940454877169476079798072678482996667574275504116872981699666380685343609142180407050),
  (445295850994, 73903068261880605144796214117, 33791875430989662526859047608577672788501206777017950547436859609598835921752934971792638627036132582441799682591370520473444850028622267818197679136732),
  (448385594802, 73867398505956118044638558406, 34340466748499335646406854786388914524057726975745987188498426131314475577489496246678995061832236409251633243551612306363680546639363915972284626288051),
  (451496777203, 73831498646548404486969718423, 34898332899432737519626689411106435612751265225066383155744405787977408019062631404343071564525965167914075614443263944965598729918624799064633306456674),
  (454629546953, 73795367320708161845123294983, 35465637313665922815029003629513849634756198812378529237249686851798529454433343263753234028198099318816156015361903714614988402287659265011723101909477),
  (457784053837, 73759003159144128200000903955, 36042546419096478996808524810538574200248176139204038864740125266580230893400877434063592211423777118766068446101826049047090278755783348334045332369468),
  (460960448682, 73722404786150795018145213410, 36629229710114313592394288460285594793846046381910665629211605032514391098017089274909588486307558733984921470458981427099133018453157013218095588600826),
  (464158883361, 73685570819640953886810611127, 37225859764663110018619009496564353562492527738691060138380873144702232578760330973372520404666951017257435159854260213088263466070938547335818458652984),
  (467379510799, 73648499871156143784211036565, 37824608543886595055841567799917941458702296765468174685228332439368768021168192184801534074530279444483492566800366165047896089905995905011086947902005),
  (470622484984, 73611190545820583102133726667, 38432688586160495109242914304168879839631325066231923976033148894727999374993571431450895978605203158257525735431881846426746068212344894365821926092368),
  (473887960971, 73573641442376751791041530501, 39050941689075539026626104212625408457445391154314717170216299683821730768641774641354753667703354029600044797908382973316150236212969163031735917914765),
  (477176094893, 73535851153141488071424932015, 39679545265663242472981051761940377776203830189029470016291203081031054294431249766000643384391900681154556925664818183290175419087410978119092219934878),
  (480487043965, 73497818264043675364555202430, 40318679930593534095734496130723610740799731204831399176036993760157204841264241520196678297855870431338858291770697239552606789257100544164486001186544),
  (483820966492, 73459541354616981411062014464, 40968529596041792286154523129038273127660594035490805444479181298949148746866582436953343512186573916842384631105578379879374066048086120998369517985679),
  (487178021879, 73421018997970770264088114586, 41629281515287551446942239271402202565285982268483447328102199394595595151532344220199225839930075768905325951308415376649276056336267845790746728378601),
  (490558370636, 73382249760819545143718969779, 42301126338391145939463731545723296658507648519383753728507476897288024088995873557787545852741905931931201951054209486492608943832117488781853391230255),
  (493962174387, 73343232203467582897420546508, 42984258200601126085339376116841118477480240729721874783941708230546684430506778044123915305421078206082634868088093177411968471980475673682033159326220),
  (497389595879, 73303964879794755877762375347, 43678874743488837389064027491046332777512406645840681472351587441590314075141439644421918756827551148092307977560393585315587890334701252947311652460016),
  (500840798984, 73264446337323686591798921685, 44385177236601040764233235744812369910089747581911927396948651108387570197420791195378133258260249375038331994543125176111119084840083315621082411422423),
  (504315948717, 73224675117104791894032067763, 45103370608337803209288806404196601556344468455497494286023080106846472844834796646904093413229155224678272406236814756638621323472471789022617978397152),
  (507815211232, 73184649753854457713737707067, 45833663519129679663738844870668851352959111478352799659307000697537010169586784492192345410276587300523295577661543709754052641551327427282655848074551),
  (511338753841, 73144368775831098810606618677, 46576268452115551395451646806141785342192447330387537877876193450783552572588320892509912050927875710721825792656813453383287145321671833503930166431844),
  (514886745013, 73103830704941291440779194672, 47331401757337388600627579918609785894198453854288258473034429474632960787820809266439332820255081300514935274502478955072105532378626234012288748598428),
  (518459354389, 73063034056664128097625870884, 48099283744692568205745445195505138186849068814629931685156262245914542602229327223779472713125251383370058251670368477170643003017998690210814070472921),
  (522056752784, 73021977340125397952438034637, 48880138750707261317922839234024058683213569915185380945520046173538728886648179317283167563953445240505331991728902591839802835538340252690682588216131),
  (525679112201, 72980659058035942777007544008, 49674195235137186463612838224749079330729349520204361187900278719163624624113957157625832655234655182311995819070588066498630256711135816331745716538568),
  (529326605836, 72939077706734072360570130595, 50481685803176028108879795666848066554628461699042318145847578692841878440643079030367754200366179088338457153822544434802012418235799902977821274719130),
  (532999408084, 72897231776217742884476716382, 51302847351463873850745206026112686961045007963165899983807056332776936535701621471916808984372123460060389010554269730357214953901687704111934949928811),
  (536697694554, 72855119750075485005842094692, 52137921115181264562417983207457251474542959227318627807627483399003815406733408540888442591377097184334184563460262533490455787972693543323643454496566),
  (540421642070, 72812740105578180098645682521, 52987152748412974358063169960470189365736121796867766847035079715240260094551577310146738751938331545817095656426823025067796830834600581629950382219275),
  (544171428686, 72770091313612680912625057820, 53850792429312822132436774859080283065985125846657714931870943461477941900211267692521381622937873128302168851908316901639056764855981347871332315171481),
  (547947233690, 72727171838742030556165746103, 54729094894393751370907234623620522901583655803576583991319827186373443977150531100286612874492900596367451748581690330212442677858064875740132984368708),
  (551749237612, 72683980139221425729426629867, 55622069198998427437297538069228922573699156008120162774985211912756671509398558474548920261079804987642675997829927239636721286002809369826668227175392),
  (555577622239, 72640514666936073051688136444, 56505704938043936077998466262984627405258905077716800031462431698563187553243875444181886305627165454063823478997359006643831316346627034146139106955567),
  (559432570616, 72596773867499494075744958824, 57403931964447977940336526496640107210499392890896334631004507501065553790156937010775287883141599273768202663756290972608818429268129818500589389879219),
  (563314267060, 72552756180205541979803177092, 58317001382902666863679961389076729500543284616215754894856137242038773104126997328574853481696065930456224480526391430365384943184355608163684806148672),
  (567222897164, 72508460038095343359210800855, 59245168808692886765943945068249956200794217440152161987975226011906172009972926727389129435326780411053304513913923225507441250480476638692131656155982),
  (571158647812, 72463883867900923655762591985, 60188694459365267366187227938414418234469490124332091990360492756284817557080748481867217665678328061786925021336891000044666691584936157420666528147753),
  (575121707184, 72419026090103689950210385217, 61147843185537546912936760261289385760989290369331540542400704585612039621015178513164014942387198301553721703501259054869612407448811560135277423758445),
  (579112264764, 72373885118960287250619449411, 62122884609393445185456384572899354410978772179359136408869937402920043575710373227879752175940549846798106463211986764828695640910325765518800986188898),
  (583130511352, 72328459362484686124603960257, 63114093221240342379089380347809700825172738618221065433717671388564630897933876269712554827986126330112840481018488689814644399456746429411187072221560),
  (587176639073, 72282747222465773860986590518, 64121748422469903274289054401246289117334818305595731862729529915356438493117057229941221984293584968439247699845477144457520325681857335306933506916700),
  (591250841383, 72236747094520314987797774597, 65146134638943137940998484782262273595531186776184740388654000686793259566586064333299766795481484004662986486623434593701302055126508014389207775407674),
  (595353313081, 72190457368079625441600167639, 66187541438166151284014676123212181602827196944291656031592469347732408908900247694334035231044050373532566417257825095794742934369246235465987175956624),
  (599484250318, 72143876426411729605210087868, 67246263608528949878960713533329085170211446464360953578026534128673381488193764775559666077163497545451199471781909914145471154761128081927041951328519),
  (603643850607, 72097002646633802763428720502, 68322601231423619422423116662555117477479429986765532627086471773652667399718192561336235007890342083234896614028140906978934183688289794876493323417038),
  (607832312829, 72049834399771253678223193768, 69416690778931249210771548198056314586814048674225483783082672151586243518665607551145535521331529268421016787057333441970450495909355840511690212235463),
  (612049837247, 72002370050728250384355916829, 70496784162968356095965205381320202205130990211098196601256882790596364945697092205805090588676658371997850111522433833580772021617898028255664929355098),
  (616296625513, 71954607958338762094164004584, 71594296008579460800425151461528973488539791019096818312425415744458802793300963560847190834412393988348601482458683667288472037474501500798013249376040),
  (620572880677, 71906546475396649882092444654, 72709518721222364387797993327187865456720249809863072260011504775283274109365087424736712579763307881509825979930838015110552660956356236417372235024020),
  (624878807200, 71858183948642468686229755448, 73842749827741751505060874583305000661385384311493866239857670685563014452210171118771488274331326259582002763140073928123266334252768294263489037673937),
  (629214610961, 71809518718819410339623150362, 74994292025057689735480128732838730009252305525398197523433933611551810014777559274669713476819744423526883096232968294717718018103433499011666790644066),
  (633580499265, 71760549120719596635322821563, 76164453358826145466237430619777209820698652646274526229261384324883170874329262056560347266732072910558014366035826941382442882396625157907492228738346),
  (637976680860, 71711273483131149770856144224, 77353547269313041686746328701332598677268640571244062325217156241667220293129583409369027494176238052198017113246342930195346376724286260321943838036541),
  (642403365939, 71661690128955273158726840817, 78548715507713965533980732598381184733745988660279961131129895574168810430047145769756011223012021213689475983071228133169592855755889464702205687920002),
  (646860766154, 71611797375190434502170114038, 79752568538247769035049526500183831699873893045193536917173146040871383542570504690697648004406424791812008125173585833879159294633196919704070306954439),
  (651349094627, 71561593532952040111283205167, 80975492019694062746988670192819016732897420985592427247757603111529986704639532252450609877046821153630644351138548774722107417310469987740684570928881),
  (655868565957, 71511076907538628118548865853, 82217799850211910120658531160922010824076592339505958575758940346417318131985621042555722055372667442245268066502017402493732865168371829088564533172194),
  (660419396233, 71460245798432718394673431752, 83479811325263556501711006269720246306048447404188644845011459029040978547428416861523479951225469139444668428167508155767252279611401001088176581716191),
  (665001803043, 71409098499348244265822648967, 84761851214419456858825174592901599247670309067338988412438270194737354877743382272982042813745015769781643360487574362783592943470325071172330958295758),
  (669616005485, 71357633298257462077489951981, 86064249867131338719160341843308350539757353537791339211811744209090957315038714724349560274001794497048958730342657528211184177452530138958315850084344),
  (674262224177, 71305848477430891377582714848, 87387343320544625783852304696459929065270815828343548775872404165513030008323680482726471940465371792328815961768925726156318240851674660498730085531864),
  (678940681269, 71253742313456845544395891944, 88731473381509542031335704669667723464187051415997244886211310107569448694277178502709933859340533845805286988445887362221920780727588509758711557956970),
  (683651600451, 71201313077307434778529428546, 90096987718355064076251132722442195865055753012986015590732828338305089803306683998648631673878218480998115329987011855258808288529042283590810284788417),
  (688395206964, 71148559034373010087214793476, 91484240031339301153724510370258957001787324063496843664524554584491452749013215647551503447319950621386043241131098697230372947372651557699494150087179),
  (693171727615, 71095478444454127702344857307, 92893590112704158362587343550264612974021683553940974288760631379975604903934547761579404794329768501184421742930759378156042965536589252613571208439171),
  (697981390783, 71042069561855588968395219775, 94325403914575098640691041541948521498897177269631208922144489384397205005381141120106591447413053106788404854466799226926316582903701953046178867510969),
  (702824426430, 70988330635426761275702989152, 95780053765417423162709431234728753681556925800398910840550388881626428070186447933802089876631104599885630194977467888258918518055001633070761327728692),
  (707701066118, 70934259908537404102938313741, 97257918396157125499022127475237672626088301809968062466494163176272047508474130429154211289715658370167426194186392768517776876201184802937137822340364),
  (712611543011, 70879855619221948997220965428, 98759383061601496865931623572904628937707380995584188203553847902584119150574973935358354968857977604735995542356633487444927584391282360174866558516387),
  (717556091893, 70825116000148300173209463764, 100284839737767169842581764337935340428605485270201625063908230809310213767488600126287262556113717702807115639309332880069800852435694881516285492681352),
  (722534949178, 70770039278677514661408427064, 101834687150818964343081753805614705164810202473434899348969750434799958028400112041928622715093837286789200124786738556527798510452545645012514490539556),
  (727548352919, 70714623676936558118745463436, 103409330926702270406531661653187969699761157401770405305803200690075134196285010295579456883451718001893816212600517183313008913031650974750099039933690),
  (732596542821, 70658867411848889388085298900, 105009183734792607026428091656094843728101689265522238196414091179487488951516931227186099439673214203373939039795725211313648565123746357146056565395917),
  (737679760252, 70602768695189324526774659494, 106634665413570388622537219919660505408727610187222570028395172890380433437003964068234944674729939356583676921538687324882683645388129898498278647220481),
  (742798248256, 70546325733618985079522927671, 108286203077844086040133616135787627995863227166449775051618302876781222277896784290544493772625435791990480460390544579442065655236617962977680229405795),
  (747952251562, 70489536728766556235880817340, 109964231247776346926935110798714960012902343270988061149833716059558631600064356732633721822426820564259638466023400671596862567635386810881520373725092),
  (753142016597, 70432399877267584167184313662, 111669192023835154728229877692528298889776824293852448946303402824748541493966062131842889828815215423115065458524112410509331842768348515477657824439010),
  (758367791499, 70374913370806063586884394552, 113401535201455410943959161271712458792305841189334887502523768430105283784824809331590121856659730313920299941772083527404990153910114782519005425817753),
  (763629826128, 70317075396180309426639482108, 115161718364905769454055666463198294942435507607400683152460337615858464610340597611238651336033743824600970546364797223755568971349036317889139310890597),
  (768928372075, 70258884135393005174743245869, 116950207113013131873464030722689068778589989923664317890895022577784847277722148849562659401720953224517880121940401658689181355542169382870060976505063),
  (774263682681, 70200337765633691713192394715, 118767475138458043880774483804364664894227673565567846580801641015725378764045551557359425380318761363442758014688911534373841286307185328531509683790513),
  (779636013040, 70141434459439305677981014911, 120614004392820786156136939711517003599583794562156180709333425286842871359458185117119393931629395184262105322533463839050266843461455759124938193161199),
  (785045620020, 70082172384659445638754337054, 122490285270036728026420205123775089559103544461131417177901620407363486018186624546686272709962591185028782614537931438784642948589924612807318919197472),
  (790492762269, 70022549704588601798347901809, 124384348003109125798940423606699698331942170346789201108140784919004904579843276027142362785321239479823715386175376429576890816475705828031120159575209),
  (795977700231, 69962564577991103182085283623, 126274698345220892519674693291565879948345292572987967571961639623519795880442542944445966381280888099406796612096046512173755581698739577039124313893522),
  (801500696156, 69902215159194209505832514049, 128194689552629841509842080920933821526405297804312263256399186875655039814228549909522951171779707971527721767002639799534196214871507507679840263908442),
  (807062014114, 69841499598139845421715349225, 130144803936283627438467648567450548550348755794399341697302532721294129762270685756626531892210915026407563211507082069533116411634553190441935933378074),
  (812661920009, 69780416040438873437183134887, 132125531930583511013325696190976945520929115309610461787104717843171135625291829187465492064241748953209624562443401751367217143793362701834722514536514),
  (818300681586, 69718962627504181722892710511, 134137372315458094196486493293805270847109053428919423064998233147120818891541572279144406522106725900217610433396763281949008285857442044626091341130514),
  (823978568452, 69657137496533572089796826856, 136180832364027917535722600854129993312978842308731131248474476630281414468176769072059010301500811459927528925242072004928933466917621342128353518172929),
  (829695852083, 69594938780647890948198594456, 138256427905837079631397727253854440374940599385717092027872799320174649427269345404222512328677112109630887661339070495333997013968548240894589648299540),
  (835452805838, 69532364608955321683768533791, 140355518224746606680987842559921273805514982859894658776047500036957866804030732952394235984344842618366951558945124666899748806976465939351869919468175),
  (841249704973, 69469413106618315046047849771, 142470469135048276121520629190205981342540764619409807604656561361215005473010442392045675670328416585666106285436925243332661791570958378323728274581684),
  (847086826655, 69406082394923178590458070961, 144618234608829246650490772182965569947379239398771032622148876098929197314448798022097130574117705077918942672825537987646477414618537254010443612145781),
  (852964449974, 69342370591374015694276675340, 146799342060102694266882677600855338556119790706451065531600819718430187613353547725909818283035832934840932413816910024956921657927304693774635333838510),
  (858882855954, 69278275809800070222118279736, 149014327776688604443010279716197950245348464550686640238987488860671146984103733508421644877954562147913272888869500098688977814750424060800099599502717),
  (864842327573, 69213796160368278226474137142, 151263737011891520693142856287818470945867535140109695130936922919592659793629521302026563321868135887095279672861194183747909853789291058748828230915180),
  (870843149769, 69148929749750186316659543128, 153548124111237160844535396493286808602915086652345400641773522332706580817151543910189211495997705661447211523987013598658461268758546080197499482648551),
  (876885609458, 69083674681161613584259426450, 155868052784442254896297688900572623684047914364111608626096952061751136051125328679358690663795474805759618675458800861650866606848947700845854988189418),
  (882969995549, 69018029054437690345974088784, 158224096138945492151334804773477240173715084152214103599614522758587874525306362934837067720230869185421734867461412693907407751581165577396514042181416),
  (889096598952, 68951990966186177945199065245, 160616836917532236653112815395364575421122551714037562050554116635601546606053039442692529507840627864404831656372161780300638941332412697639314491548032),
  (895265712599, 68885558509803315689899444942, 163046867666263345589361403944509538033503358234485810442224060315155189079771751637724502832904690086039240387494494452562702787907859075638103867167393),
  (901477631452, 68818729775632734170436094666, 165514790862775451505744692047659642761173790074432343034443506136159310561309258880330034355704018073020692409410792785143991526629949671739031672919343),
  (907732652521, 68751502851019433119966884399, 168021219128017886958550047116468665881015557723719555913762350899392351024029783594209018611010429902235511927084430034438879774680707443012379769216017),
  (914031074875, 68683875820442017777327188624, 170566775414459677336586503941750313125046373151853185855410156074419423198560958948557496479157250666367085515159100804454010083783240009336510746125155),
  (920373199661, 68615846765561880278086405043, 173152093172562905782498827224246550027704613754863877560038102329707733319460445172362159490536573680410559433271472812352574733237447881352871912024550),
  (926759330114, 68547413765372020406331766680, 175777816490357287425465700249927503702826820985605386640341318106607253850259111986615543805128900683380737997334081835469811906462926877186747870828725),
  (933189771573, 68478574896284358410911765842, 178444600332278136676699146545339458848144361429507142290453635060595519369135586508426882263408418758756841037389713297588587304581231310362078818777646),
  (939664831495, 68409328232241520925724666152, 181153110741668251296871921638629820645286581889904214100529951929751586246016076494649455248288300352935385098880996364460160185929197752066742472117789),
  (946184819472, 68339671844799580102900894928, 183904024991753149291748283787947148496626872968965878971157710701486724410489362201669255073379514739903066657179330930428580059904088606264771489543085),
  (952750047242, 68269603803278000080175831529, 186698031821600474384307002676637001077425033741709714418207286272624914502870484080429506024661317416050770789826475921265280877374213001336393808309801),
  (959360828709, 68199122174816510595901585406, 189485832284129817757748469345622867136742085960390657480729626529594204969938449303806521108161766152274506364149881640927602038513065734578801366155107),
  (966017479952, 68128225024552522144015296915, 192304373586714082995586685386703211085069168398402705535914938510237016530474578798048474252953815683491647817906151342077052401317603578104467768606720),
  (972720319245, 68056910415684306984384185922, 195165934496221683103819182011096305323323601815747887751332048839530299729491551763434949314170082096065405766755411087731419456693658952537405862999903),
  (979469667069, 67985176409622652832821635207, 198071193118774866319832939863343883438807042726560516688449463961591679301622124436793305775759121541483684107179721579986966877643350380779622142862223),
  (986265846131, 67913021066071214495018047385, 201020838634801208917448213789515730293833975173769140566801305862225619479711149061429957288855404804538355538348741458140049734193819273182649856341617),
  (993109181374, 67840442443205736842250295811, 204015571542304406816518736340939689769813960104439729551781895862551622897287399700014309319769142314703066301532610160802743075236910731729734835467324),
  (1000000000000, 67767438597718506118212329346, 103170122166188851999097470211839376924704978102872944463918251624687558422673251234194089137698036187835117803652823005923764654212194464805527480713608)]

end TNS.Data
