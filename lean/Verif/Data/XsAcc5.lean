/-
Generated by scripts/gen_xs.py: sums over the first 1000 energies at all nodes.
-/

set_option autoImplicit false
set_option maxRecDepth 100000

namespace TNS.Data

def xsAcc5 : List (List Nat) := [
  [12449509920435499211434065962560461200073165828770419499601521440070059281570811671056017474035646488856634048372307274339384167304825161606506043373745006521216360651404335806465672, 1949785919998797858846910569431968297259622770156700784021923060184363042059535629276469556911145906027665045776134684837744554197726852665476203051392026257578026990305826484237575, 250390350096330384768165275807186970388785515129370420644351463504822760562133859654164078608161044163870422340981658795123959297306086637950140067357606065196694375826898450268067, 24223671394904385883613579490866458712794024720401026793348469913289514909760292914194355728205264518672850488744389799308141287781580004469430523640929427016458332842068666146346, 1580638093482752049975306755687566446105767266943132506573815137154304323161964639245738413017145725107236735326744761681938434899989145487158057713223193964044313127663475143302, 61142437412794909037880378928753450522504069052953759434801818606462331386856291725359718264115625752262396389160548726056197199629276559346889580368796972277322122474526929322, 1206769146511859994594914899366905249897545447115309720473437327570220864204778324948383475874194325896630411545676048089179173504969522363854416684287454390032507394215663339, 10164141407717914425853856448720815875770887670943816527850246925189162166312306393100294990921534653608818499208458027717140838089314453186650122927558047346421658249242690, 29578104176365723280171189187775086229286497762744344316618474634745027222250922080923803045283971819866326229719718261137348068035308648702045460426717860612872442734250],
  [11958141049032883828063500693982237108747450076804673590953102816326917744534724746885443148855635402074514282735793710390858698111292075077739563649629786810305254268012223776805619, 1865531514662341322506143710044574206594842909423567904843225569885817030234108494627275430624385287155927829408719598792972140886020355488062108405467880519378880098678113104131457, 238287683619566090603041123663601101288516589335509376204570534943858582394112041107209157692398275808448855835841243149792365391491333177897430078774667456462330353850624871599860, 22877248218469965435054550397660667864326348171384429851243239545459204109306846237258936268445898390414913786519170934608967691839965420636434457937402704649498105392555089214289, 1477369643094004277346883218908824053969321162862102593637172961030498262348044571192110471935852284522661068227749202164703411197969887796176212334929237949180228737626847776066, 56379760353408243635979857730509865975889923648833836839836555469548668818221228042982368869236521772694433838266552708364334595666302210359290207703463017737506119279614897807, 1093748968503553952182416148635227435688997989504026781687254172386996930095428158558939578444293669145605902209338575237244346338485798072653762966657794924539373277229279424, 9014567852745061686955986189831013029293861828557672049705605404287578571198436870972801111022498044311935720875638424114894177568723048261811532821707278764649139948391188, 25539584844902886333494500690419705461259012749862981768167436415672297132054473207954869686739231089414809900569602414040922323230359962690966136288885752564388071320953],
  [11492340667910472175414866795075059766009464609122194419875958886966972727878472000919381588383062505763684489082797911403834966370843774952148681306416592761677054879254787661450868, 1785964164860042007536398224241000803319221920401937944097553079908342089831058352037646343934380226912134994124152976965088334069132042379026190537924503636370635897676307237400301, 226911815485254257780115715017029669587679528714481735221713618508408712259694666813921631017528382054191785972615588229824873856075799789821071174519331568691411908302936369537208, 21620520643300637087766523978480018786266388658162626524573652415296064448048615269971129765250333929677214510327055200601368884601144006023119164653533094349907962114107204144699, 1381929940781801398116482977926016213843171191918482410495318246875632473833569448291453270996373897469083957156122763837867768668169937112938194502058993607542831748203855025436, 52035787547842406753436277854421885071103222569066999458375031480727223680465891761393264066741758790701369856373019707091220581468567895147594657034414135193725139312655048991, 992399283648860955859061026241070211520192451916595458610627027119739356772752290683279282432878190019828821044641157381845779972787783416517122204179683049871113847950416291, 8005598320632742366975970467766907969111095743714147688111576410855092641674331721842460877703849647676905476743165694476886723213567176035233417870826824221164193543352743, 22088306187507407751716483159047049430511669659473764173999703525987173389327657445673640330087941219534597221170930403315856445213504827062370055314793013554636948520178],
  [11050465428574764949817957739540950145396057339746399889053436059529773090608900355662071042466281989261182445203319541940038851789590816656419534978083391511986023099235093006999409, 1710763285735231817102119157567291167502282250788021582888042676911979161315802952784942824060936435570545542810932129093095624319972554805812581645831183721275896801918340785845807, 216210259954703408196191000956826592264707516168150306869166918572806374972817186640082424838992674425344036983639632740668950051923184817039879380422047222842116445776875860364205, 20446485954823560301312798783985382780157701156521502667657636469113399744721906671853404547648739378210528610020365425554348777163777878833395719345199352337896802093323443174096, 1293640802441611455598995292812212460078521574770380258243932647262548822738381804795076695868409550530489718320619172960934490603441639399420624761608937562076872685404113707368, 48069406777144902998412227881173030448418112070518787832841834106881682081832717114139051776589497014689222976022663155662322984039530720721101002848529283378795649108602351813, 901400794928926657693481590585319615141206652846279358804299484339721433355018821364006577063168127004775085071929686112649975795217465494681620485964834249874674067560315746, 7118725657421779862570417441148899836988157040474420587954644882422359812305083320207760607301030618990121264991662930465368162938804970445316031374810601863941737119002061, 19133650097047806921831468033694185341495834611542860645068204000991399642955599839202180762787649586763394655581313103835199419723988201443636247350106346181415589623528],
  [10630996223412591077505431311660841711692246684416240551487952797945113460922951399368009906312587164266380187680521219567115383982959530991190456273179873566282511293206998984968623, 1639634323159892331757328267383126527351152580656930984734121992471326534368060936573147174275792284952166556360120913624290859785472063492666172624300641121090662716334098995474974, 206134968775871067687789617481964994050911077177410784322769261027114434611526664007190551279485792387345459383162903389420956406181896177623966356429104708856164496089285058591117, 19348769895602344359233995827411669186448124559374962313564945101270302632563010600131315397103431347284568552824504414476733098381777662606289712437500534400984701188866765775280, 1211890265917087826411426355145758500504713504785608082113892061980056852975814505330865389643114534526886088078847375931258054855941967060153614762135640437795485739098574644173, 44443971574430292706514341605820936377447962554014135367822199173173775302566283793931145303090293442614018752917926819703379934668899044306497378169522210136327043904398854572, 819596405272739736478572419244347380165697711744406523702500096711144462935419349863856986105045468581766025683557047604740150248128808556478948788439671374830482599171963393, 6338052359281133992304358038790103113668676373575120753363696780119388791715013344629557376792154127628431271868656179188066128872785783310391622871715604457361994161985783, 16599789224659512737683658519676910301060999537731155885110437745399900712477379120638578612320195656791446427944363126544142007696032633792573757012106636040211734655587],
  [10232527541387116669948955227274633762200786241630594443368932779791428871109102927040170944086930960601079989483377860894947799380574047778761932545289869890207522227928720115444536, 1572306310563459546584364989536874970873701791494951435404290151629711176115560868579603304973832240763877178561761859942087160910734335184083870741163365076355091637677682587372231, 196641901336746654464132930165824881782739647633893707705645337424122460966158037259143344125005417428336675742654051020862337402437015765543087786600849488274187818898659523829186, 18321562884564966361472012069689809284810566660368171270431028800342136786588815373407284887666895568573492150519655686099576769577301435239415272455836151667461550737147344638582, 1136125389066019137178224073440895301783144629546476853806701857437839557880403154607097097808278437448797088316794509828547038837007716140612508463748509656064186206241868538668, 41126769192715587227906753549863312813969210353775212813484986627537082133005709524693353445096270897335767591651731219212132324213596714130602368305081681256451835203063951223, 745969661296538065047872149754425943657098432634060574725132184801860571895081707061150475182040518022178692379989215738225776353117178431322241612625714059305364635067741202, 5649898036890238086423130707962086333334595137872549863825249954033317847848266579434537102634841510852122954245191981906362978292988932784086958860275000822932302740996444, 14423141240300952418685819838859253459418666974268416613444541342956642618772649009253435016139825663676473941810459351989130278604257724577123872191114888977662449530857],
  [9853757827947466286466642813271607872943284624472725539869288346781247600453400466833087111564288821305058233421980688351905783494480741928334893043340688838197159180615547568555748, 1508529685428956744680336487602056390435410101228620769887269430005643926196637993864161400998047777022599134914246137424715295512087560110293664471815177129555126414593779082452978, 187690641699985680537467823826722325826168174173983475450853106413278717635288741324969221602485767135608861287716177749997932220660014388892548248299852850125304095334411572348045, 17359563455984239831692398541718632475633156728800942559728424320552063580869796939941458904108813388791082058114677393074482088513778698276645617187393915619816131613415668381054, 1065845911109839018799699916907001401684764894574123790896347245620600716715171590268784295608446437901671346122791819233383467467720356929998645418927957341400075123767289134047, 38088557557400182223669282738878184980379199624599924260085251309793138452905293993879324450063473942508086387757844202845796227356130955473428258350944973816261740808490833735, 679626276638555830020418288499698275404118904762484867718941739821314069106303667658102468470637911864324049793081394803437113682377779229709473260491712368608800498191844342, 5042469615420500488506540091425051143821108044366736124707189875376440073811659038169661996728692501542999749358058961736911766140194675379617405869712848810382537437175481, 12550283825506192022879474677032185342703468172551656218123218386600203705013766199422456562357852538317540335781281845207567222099148229854084717332754642107114971489336],
  [9493480747097147488549003772511132476249387498959917981026926220100115016604365892524310583313239950385949120855653623072272209677852642219028916169703282263669630641224813865614560, 1448074334708117042366393792629498039986995149060756559210163847416154563113504949146902076295397575415378667225187479995145489141551675959845989909957619676070832788530162408321389, 179244056842709110531959434906434736550463590957854959744502483081270318715749617392875038464558949311808751771453881146361385654599703676687636403196287713999296777937717286120639, 16457928017198901256754887904636449443867784692352018859120168446073291341801476774158654022034701168772094968591077892407794211152589234676431941033354964786854837215455228575715, 1000598664241883525187044254113686979316668561742167699823747523884050841500582144620731492841075394597320940369437709259837474951814573124711775215986889962175059257386914504464, 35303161535028685428168390617331215747239478773483108311277592488145978656208898740518945599083416003691159452696305248746630379588035811085550746869022338698120922579338260468, 619778264336952242880375981345710023563321705638197110602964511545128124720640376464359688085020173525345787117305930864014567154832384309774936966216493499861802060049108523, 4505583655676882059258756785520749756138568618557407768018517451148545253462952896742875767092363486882393917420939574699888987918952733463028950250501651287036403383867663, 10936242951968955134831442512899335381701190073562393973609949186136168817961634558378907941268629023774642778069216334768163878301315196404951248803529389826620258152690],
  [9150577254553143939786123577967646933067009923430852452457501987749525138537545390203301932607644362415672314698724820081506815179836325627933641341813467262417278856023399520604874, 1390727842410563307135389736170679941046566468848048612962130157398051771231276415355574969067111634498334544422239058052134416561376152801751593030291436132284907640535634571133885, 171267991179477757430567602116030069528219264981743270157362270754938039749456773504358178761406542227761547111617053731485264568994021823129047689059488235029587514927618454221417, 15612226146821413022619883642665680566119201939962659391469380867120977823065118654761729549321255791968923281971253347357217047857617404528714073212743877086632726470166273015532, 939972638505136070467941325468177819040813172818539766440569357350845234794657683359476943056280060480914266578918656321337143916077241727046873577503274212862826268749277165287, 32747120305706471564369448437290895598756230252752230867713455096526103276332894766615761854687297535820539193211621505940328262648942050704742398557461408025418492285022472057, 565730284242833094951272195388447054393327920759882183567059449447682031129164506110272700255184443989611257828171361787019949713161563454585503883841268276178877565478168708, 4030432076733658087727641510632628799423189617399867727800585444197115506204100485064265418377192881941616073654460494096377019845362227197958019212810149267081843047565872, 9543084362370746998564874746239895012636248175815607435930420557457269239833067666173121759918594654792182511224092439908683471731646038999113820608842610397295333165627],
  [8824008400677061369676033891884929238013012303883118402173311237349411904769094047484891132629344440599958233289590773217409881842674025853375428876894442442996415237815158832063669, 1336293916058717718885777623835509662952993502488374555404469751963252836714758536586112268035793552778440219391772813618683699930121021136283299797414595379891792796781052378916592, 163730993091664887831513702003446741843774122733548241892050943490464941358745396534421457947106152097006916876260216788988756436492588419885449494061932518459439758127333454648779, 14818400759829352656122033741636112431862983447458100066372461688842233995422395013931553888232963523391722728406879676712079724787573880034583962639548523933554086381739750148616, 883594616537263913366171526914891448674811040647168675713656782104774963598607575503738420732941515374477082843518752804867852132397569708368144844956105864605444729440533353021, 30399378848078293560418798858405001528998007050108046414712289000558502195215597902004559711127513244980558695624190507463481191486811075329453835513881937471503590756142947128, 516867874804039622534805922154619451718327723082370541016144016069462160185325550475132872693911836170868879382778901583760606219528040392861114514402062124640950553121643894, 3609384099429158529584606457342373284491937121935805094523813076391745194993385605172521486802453599714427483468043632172513714116682073523652822603190830328557289184143117, 8338751934495364598678104547198992637798374690410476478195359222219023224228326495036437758545876597946933003999557789141502346052871026696394921911638991276445693980619],
  [8512808790516404744732084185288146633577563265553993890853378876157531029016210040335620247811645223945243166255997356869558779900832492412978529814506939686765639136145047679154737, 1284590971656347931878232302359572667125981224636507236360260298260212079342787067810100770735562912469525766620642169558546983133932742555329853218591319092021907960176711342372483, 156604069739729961351544865127852218780143420660042193119015465210473041264494006349844985191487261941024749987339641638661304646470890192609865782925208526994859421544943808443302, 14072732555351762152894346761143910808388587112813987870666365657068596791921533299573466063612691769715178922780985745656318710369316650664985717697032402713175014781881476170289, 831125306319275168468328157270398170427209149680399456632234120889657739434699294150860545868532867595070230296965367506256837377190246076007557120063454459289513440708526837064, 28241017573189489573599333086563715559099391432171346158119256550992440192216022616899031035519316421379353918204052091483732153731522476560470892468976326971742874980636203642, 472647291103036404548238242640618423653379356540553717171823949073687421203706096408287423926077545624330861605693245413893159940202766034581976827134859274192680428126189466, 3235818483417596560346385441099987215992064023938682048919421688784379433036404351573521740477184243591823372856626929410047618124007333734378990641333876046891176209479618, 7296107552734310320549351277050966059144830450583178759554672838166770870492937388641984880855741253603279820992618903676274427478581421365844415972998006296079902510539],
  [8216080635984944959695802085527229813541363198699241249958998972650362696340010314580544338971361228605253109574221603562201422885680932583329912533679411373110400412873954128885771, 1235450859366877255011092881479102434982698301003391536573827274124823432321416327110947600672500568091907430335452356783390348164500607416069263230668334167904073262855580717861856, 149860466910366730509948588949085258442852656444413138262977321450056412919622614849491822620209744695120041853275932336804983300287429346189774573200939748432674784547101869053163, 13371808239524755587048080376302916274200811685163296975237024538208775733655314434571526634648743211348266726438499320544479758925563728612947744172913451013606134342099208935545, 782255909884539892392869997221254173660097568262970577254328735578043052066111647918122708412357581489599280776985274932962168307015820110044158838052354707934234173852473797438, 26255015009632479720403971853052145410038729730417857089345677141793987934892950533651567902539163516876144570339689367228454999034842011159833006885719028174113575095423138713, 432586714727123939883002576743083839260504799321556763737032287263987065138517504750399568305286646243881575396988426608960982904593166669088389939193038652437681542412799619, 2903981153731856647285971261538587392339164584742681269417447456110374357325216483554058799298327988684398164796420191342270839728219959144521222916181334708712480954059612, 6392135834954713443537047340776775932452384365383766549320788559601017797288984581366923227764513749389778308655207566851762859508053718293206046392219435091493344568731],
  [7932988342048017011793111521974484942207081322530305903025873316958323903131689925156485280821002335344283427280573335776224716531779555788508499762174038833017806440509463896216001, 1188717714298501762521016024276594683162475671416285135007963539748009379295010516717764631541753168544346957810080300879567988232384151284469907458098748612111528935586506297032239, 143475471059960043165533967496216781954558079180426115799872972751433360609514294678575007168879256695606427114377943210267506181587311270094296154845074860623235433902432634826669, 12712492081487941423117466418342708194163571116487121355524713273232241707559701576587561098153575366778608226535042448608258167739244538186942024032729835551733465747212871021060, 736705074320931326034465822603181846241253832832080707310446735248849756348243824356340135113876645921560973608136766014860659395694849376273190387695781033043179028913117749560, 24426039174074495536327261555045358293217025350680630851736846542981799254448694425916193585217101610286994911468868990804619395526890093631499420980304586015150304446644097650, 396258637466500248412370273229294818099155172354365047145336839584335684384496359961061434189898663346167288693281792848128690030460560112354548195236089285334412451392425650, 2608864150283431074442061978457584547831731646230909772031679240613115064366780192246870921833066576800388725463836002662260769968208323485141600452155113404174081605487106, 5607284036079547037815530142254768400887679026728300563811460714264933449120713157145050054886923375017877249760518121515944095827446099414614208135264243581804013652908],
  [7662753574859963550277260734743918960547761784614472839992036370593416278707279768027080138397326125858386514828765058020621480280388938485964426583793313139221820929047001513062967, 1144246918697818874641372451546023121127373669632558454098984755670703229277772091760303529657088353414346811607974746232709626639682274897626877099906837218913621898556347023725849, 137426231069121129524275105657357927188264865058698454511285494991350998375376947352608840040803732332787124707579320748594222652205603070889444759351756109365721357003948919044947, 12091900417082813371465479463901273405129686486912209538584450919995349952566607496107669367814943672304876355448732610200785007581564532950360320139945002611347734078094625956509, 694216178557755358211459628051757802756151929155632942828523427784439298698981230604085860073979973157703855146278914309764367155639649839584938411545987479488228332802345891182, 22740263880740261815216934365180001525071424523861994659133095945815689856364757418889692257673036416153147596322219991340592412087919140555451834726730622696609294228926621870, 363283251255577048327739324803997709459732127893503264988069661118175568737465415499759020531763916376705785627025376208185176005015312820708304807853575003493817549881951023, 2346102520789270939694961687257358305863854219976716986973804081705372658306566958669303841288496646657189401102328813803133949802208323173054008407243342037911340901782895, 4924913038430978372643563709778595171893746285549219114767628823994906710945756256431201674964333020765449034367364411492234504122609307359609733229891393501622060843352],
  [7404650765213577393801022187292042079080541173686293868419505383024978172287494294923582377302857082486906237109562994632797583778882722355807286689648556907228309518236406244785727, 1101904163505103333456605462028388561897067975975791755965529768138300263817598535783110329020133706416848624489834231209044583061026453741894565914146041268833508168318891314420302, 131691597528579207816126142332957974087287207236093896782848373348013307156917188904018525772823571699853448233400747005149650542096492837666125645418273885765734018599512731127318, 11507378763483843383426609919325836849279638605705796930918524052973716641793976860218018952862641741803618067121397935697894373423867601259588303065268484208803115097051384089157, 654554915560177621478021906204906294377673900787693942911196605370518190770463410913772908729510825522985621069856752494437725076197206242373645001021703952590975084384948845203, 21185206768986155376144837590496287561585415859096358199149946923954094246786025266191964146917383571981045716716589269984090555680731463703457568026129823960160835243224265787, 333322702238571965130925399633918065390009075133453578144841078993802268847351964681724171597549611684669146205162303415579023874784156844838147559671921729073635828169491627, 2111886342599516588922222235468625332389807218356382258028391166000133481783925165366125899534141906237761703745986283260471802940141908898826172176394232770905577470478680, 4330839829263833221845641105757299107819771349110682551283946756472108113738298722611493547783533253653262007719506622310640735666777760182952641699408368770593077015928],
  [7158003005481803828014420333686366953757043540454304985981435080538470204149990005758891699447431773778894013752854398292593086994397009615387462972695748166986919889296427505343720, 1061564598658904249333532124202184379405910287814447489131859526678914767215396812369778465152110931013424125232846833671076842023094536601215620841272682535290476539248852610801157, 126251977641371749559687975934980119383261746377482896125744435040721804788226181793959030305955902878535482364376389828694098602404086964207078769565119317386287436585362081068362, 10956481250006715513067607655829234560765459468441688099968239650171749777369674798565338315833426573327340786673348063035934180353644170656699289580539611157648189931432212799656, 617507134814942467993705444862628179687862709141710414317646396998636687314851065955366234314491679868303514220863785397324285482870363414822700653826590951881851097752776818006, 19749586274890590203479549855732744184622487574451130599356474539053176483749626363589305774263521744263967659064994424114874921239423476132068786182540907377520350219130338398, 306076088203923492458211850633972755595248495385836421448904014349375700486857885511977942279483953000657650156312778943205078850826393376620657436693542330607821218245398762, 1902885524553049078434126721582182197930980773899630384882915835578718201269030427318215512631620625315773202958735740177725155336716482200032206618565025818922064964481860, 3812955482767069103625626727389792836352455406583665413033324147682988221907969338464668000420445966210124951473723066598047127841173385919882243793805088892741991497264],
  [6922178302527606569733698016147910143230841696556668811616087360066215379941171528612179565787208190924023100027255526065967005845487832627157686970862894365889549907318436185000475, 1023112062786034932173022569535044176498343289046111634066112393760958091286789480076707463031852238808455883879842057085018212680200099546961749978338171397564040607249303897275740, 121089204055987870488944899159230569454730532139953637409762257943699615896618542037411696211162540098599269590855310632700962057179810278312542728176274481591501266048772926695495, 10436952106674881109471968984992974207400978460443324125170535249802877398098365144121958181888345477341677691456231490162191745461262449715504240445135192993183918817161433795362, 582876914514395674004627784523335861918024163216281036078596908661577087251772394370862331957229201036420944887225916418370533418631085760512903476486571519412891689326227255074, 18423195153354880444086943398831353374736951794990957382359087695567711387619272580133270587373485952652714158084427672828695242437443732890314960927211461081700536170408714795, 281275096591395060345893077893296749333487268798225991500854329026321733503570362684211901574642602176939105507407636414984363911302239141420177468995976523660723314019380533, 1716185424623864078580045039347003315603973404529146511419356602876677296704416278223187598689563009849504707415957296288466881468268531614952260017721755439663883220166675, 3360905584111341729726328686173590702877788717688362779891664850185048816081143934963607626938957601840359311424106405195204675934085222909962382749272472355397799262845],
  [6696586152888310776253220959049180094599390849363150736310115375127845298046260927269824836356412259298964782800977597775848519554500303600751029950567663902546704273344447326859781, 986438384001368618408568525187943727799247598750529977944851774081671949805457470117079976088746693426234916197207625026362948670935424797224756790691712749348851810058462424356251, 116186416144859655840664874625207877717050615421552208525156365855837637096563844645967064343444293363322525087609698315612634179704316164002841599484185596990953515883263914410342, 9946708983610408574357155104035170491293189172635516407681470275258326940692602374978887588970519516479354825057397264252339868975672669583331874804308907324672473760595636617728, 550484836741912503011889992611450450006015221318714545554248104331861785360693063548949080560029524430560967623305085461682659862462820842880548571286903937222090810329663100444, 17196788481996314800154821127515471085457285590418535760393113985052173000074897094186933237354427986302322649649861058616801645160047772890914804962166919053801163483830720300, 258680195403757165435597725013411625388898380981691842243208815063992200983650963102324342925710232819326462317345135132765298482433903801978029451688367375200025585219940331, 1549231637522653376796658854113916793261934906349532636169239778808200197021030074737671672627860029103384753721403574860602400141747312989504958477717185539771878449381622, 2965822396576034456047805806922717001201604054657343185601688750221748338845399016470001621457570345163764598556723873860592742113874695526515865875521305815560785381413],
  [6480674409958463629657085209558360492416958989421767586661975784129123077884993007592461474493947105906276065679685831236190158256950856388668655817679555436413794618011265838660623, 951442744492304699076803605772724617099882191118485931272841272853725683161201102257280766955365764517996582116520014337874983816361184214665093029740883610066056706959956467888827, 111527952416584766895712020292284198918273776147655346770515309945204617035863932863019457889931164234780321136232277833561842056253955383034326405338507115295273685536829198785505, 9483827901644787790697361064314663201462769626654669397444707706267705858080321934343102617728946699168994744813824304164419007920400736395849673503589131356199550830552093883632, 520166442323840983582276445910676880142905049430965053161780899911406003184696847725425236938961634433388879833859691577473101041304635262080104210578725743094211406022767187534, 16061984355815478995808779663548223766614234696415807476553369512139027583750328746526321427518934701701942360517928039785479402345997179420124415285955777702517558924697880706, 238077302123079956575770528789627885625355175552530438511942583130851702491168736680852960475130775961119745219441052486909842740926877043858649544803813102729288867083308486, 1399782570545686430885426064642459431834625199819813446527821202838161553892815754277482169905878672516189497674714745536303027348325730533599468592198119126203052937097041, 2620099989979665565160557107477295423237195898581608411798612941441690521182373633052440883301045079930572858931684526699410735335557681740519916609984217794493783505919],
  [6273926415946710003307323429885644982462369458676835208798424839133245072022457433302494948368049943637928087284427985795395221157282348861518802053541684741724497443503249006728026, 918031102394207773051085912503283778135196636295632818382105002132957354563107244673996844092061719087374427775585385144842597066847663166861376127747948612322905307871187239059305, 107099252902083536081803639955105995620532291059675482325110833946421197888846063149550593594951473843941680070871615956738753567508842475071403293869779424211193516105213367486195, 9046529658309776241147699688909349180666888604259972995201646072635006430005609284053269727893511177968123480774024744943878599695553662795908210542643678507867890845311047023458, 491770844919345767530334740131451630036000277912844689641722737172314640294168999405865740097289331606344089122034309084855755519006394608509929244460669944658780756394838803438, 15011175719492643488296376170818552380974288422183880063068552548980649735436926509260117281640882891691212452897661039736861701755971553598724093494104052072766657498249553621, 219274866528727417556561833104261968360270529447476989251766248597770649841981828123667733805890589323095505947708088079814119789935168361399015476883541580598991227293260377, 1265868645518751710452665229448321888288642580106653166207292148759795880321147261890307023365699733398096428364469914603475817326005531679343704286815273025819814587430052, 2317205107318042495130527995014890640730869523668558722577057368873540588077840261619840616058726031985779667578561959941503431980230139895245613255814121805532208381539],
  [6075858374108377497931155735945465949833586695266168975078962588416847870581045785565569611301667031275970753863310340574288663706756791111880821513062697769198861361581153335025044, 886115665191651314601562264441207703638260011657258260228404484744938898766018721732623941469980228712252693944388577635977680049231152791629915136206472856846861663215280177832060, 102886770487593633508845530083393156750933419113949797949242906718894364378131916506678905104013582801585148851930308530929326042487111499404358102477628022956175777144573907675685, 8633167534067861318387553540537820116094755821798972551577559120748981501984430046942238441166043338747793983642787342261317508226243812576992313793648527620245169642152087517008, 465159486436192532935595671660784852534140997141490515042895406513209230230609507480123179489048837256402644220137078561020963346771818472690325009199895425821590936734382277598, 14037451988287675346553036358978256355868405360265493784668276060945053300893358393879707325371700289320559086909436799665337933230347866516775258757013590801789482194523260404, 202101312461486249866756869506974112768509160399993765141572463434318476264182702139688510191016404730532497239097019502943379683989685597919844888224167210762671816654415211, 1145757147555179443254559112106205622476352801490388577993454423327592508087677397284417456818884248049565771618169281811294994570971752892675039747052616095566157155264183, 2051517816502604390671778275488404644168573562131740855290182868182853632176792492629738845860374175980866875816170161192468471169249372617078395779417060863502913231909],
  [5886016939192655965971697354911763333184598925010345424003332464406643782541450643125045189250351244076359480298061102722827682028485331321990967041445226800145756294676223988558536, 855614409519686947210475589459191519642922889642138217434096596057056934866109721230431211421967464514470996242385684004020953405318233153908854323719519076551186282129139239802610, 98877890283584491643831951485801006041344485591496460279618608688878749438898591478185949718376860099659322945206932575546974993688067493333477360691828458287907636502936666108539, 8242216161701708153121764642246698989589715718581639670257874947767633990001353642602488988830373275693061436855756579470364164575255730032818856872430015316154384575980942925474, 440205018043447007092157786104613035596036608493367752357808486699889839472213656028930666576087151189633692039404122538166929375231964283952168816150030565813195541176091440070, 13134529283977707388816328081027826740753781902871631421495513475974066636238996645569334788437650923065270954999953277777095782979610355354662555339622608601645333507515702576, 186402791342100773489580966855505688515206601177750945584834586530950804164805316144802898524467859734554325178080793399236896991640376820946821507938002306431381596315622824, 1037921893961408016857941122911724866711919522929574977651786122689856724997725967107115061163680718263864337955131593628100982583876822519739352716958882237073109793249327, 1818197031071925324016291781818339286607923808935941826872654208394564100932063046150768823621890514415748048814300757530980589520506659479948383574885450498910103620303],
  [5703977006223507381780533512557514360695623929987801893162017905859567753316852520450071995180304927575283485329979520618007054007193457537635467711044806779755674140745082085092027, 826450642801401143743270870717241373816260790406433335550616448432930447324414830746149794563933989980992526010274150687659905610740748656324006587747622097228866531050383048169912, 95060856220552373948231327658002592465832138605149998302537831206037821986484630714624742958506073909467766183276793413888623077946030184453288758016392690381691747922539486079679, 7872261437564219411426968105073235695365037506019821300906968601309206873653966356824678498089401033880226706759444480860757262095109157899962747060042955673622160179132277118297, 416790292948637049342917814683650536602202364345378580587272110610330138313168903173892048537864004944666588655930162565201441823569369412790665024851810577819218292588987301110, 12296688263346048664456621101668270707760744315424165210097155988841430363893553237550889907374212218757564272196964580864702587970185801567993877224198913596848663311636720951, 172041206853812100565778214200125149857139520030023240102590000792485332272033943286428127100983275492633541752698327276628675269927112224415843408225118972259864452025347312, 941017024230746832802042934371672422934780681330540824548360745756833507798301376580285644616767581224069092561333597864301439117815467167638633964502506741669343463335097, 1613066832242701246625542719116513134191398053782455166589641308785768619556220872613986285265030359046266167271728988941885058469790686944043163943963841270833259750109],
  [5529339679685128106097926409538978454238315912867115167273797613407361230037029114997249785347218395022518144644857580407875215470718586430967345123417766018790843023642101844396381, 798552602652831664850894081049177471716168066914771354017009100968614243882389014429908363618600938875755030068652405542014848848846708569624524164939659162695937203634120405354345, 91424704152135650590468285908595972067750303934214187241800674400566136844993450843276045638263462273877093509307122327816133210372536184057911950774843384680740933841145225343333, 7521991367204573336581391777973589663509103067044204696349675441677270925156291549330708695485403291330626549036635160613255227856322933014665646593223374622643221886272275092606, 394807458757344714346407634220084224615366245403639189436043165015910696921420757029052800983123996214243807435513689260438768922510483531649190473774497939140195444218652737406, 11518718647037196751359998755198924358404353591800754540654330048033519315952158989451754744405999911173519693646265341885620919674435342381086926817680570271247925386733163293, 158892475821149013426205355598817362456636567148631588207207878916300874813128582617044262978236417830347756481902928954555319913630908504152599309604643160579349800717579128, 853854318962793752249306321504618207987319336048937715714862293327719963719990621997178750895870777516495418691348424881541365345718839972431042328374207834807181072574912, 1432520220351164577122155709189802448414582436386288322129660537034689606327599245020056980764592338961368193927223687719642455238333638985769071353570585661213140357845],
  [5361730406931029904879468376540512981189434281000047472903056904904032117792292979241771233549829381388868846291474283223188811590523230241264697020292852180781686200066176819793088, 771853090422593673721838381034152096705340706191675142043732334198096895074397561129208438831263880930521272909856855776585378545598752386541327572893195611044150578550285837255416, 87959200824698060415547867215750431463025282455315078016688605540138416196608491724866146718764582723831032758532208444316646875839466369505659303610063130629935816706806475432566, 7190187749995007957265095199965533707989066032577170468853208414640069921544088144555565136473256638900437649602437084174714515520897423907483511314123479929803282167031757636230, 374157138671651207670499849145342828152336463745300675239152723085801689264802854870883330906466629398320399789651445716231938664839100580357853615385710341212646026608197369196, 10795869669155168621600598887618503628640626758084776902810282964089505876367073754590263223927907365944326774624396209113079080412751780141888179933315394867240781399065722242, 146844995114421435137533997568057966748446812745445851093752648555508080490298725975525689567986906009421200655792364871114645947785158603084661444045251002857254204620701275, 775383545256978398963191835069882242835009618781439133807865436944028309716135425131941984356835132337096197406842527543403193357248982932535288711746327669313884218115833, 1273437495270369302898298507150512173500544823181058892872410148638270203968053369080702011374785633230825531605372337677395126217792998658879133593425643864644251572406],
  [5200797261202862630433071591001582957707397607005789788516520039047754370379514832975728441568770688288094947625061571117825876158547461237515055653948735977593226161476172620964239, 746289135618799798482019083529005632855474759859115174305029601398878376903258509244208070953759886325629349173538011511976013185992531631373750068723524344387768087847108452558266, 84654788141865381257914201623077239416154532499931534018262090377538835280437322143260582657364609840142880946391286217984819835940851624691435585567444423632412764670412169798026, 6875718618014443291976511832088348224234907236634189164354713176193765494274024210439701143105732849164342101387196112198246833658125404223417218408585280730985792869144826078652, 354747692039486612342356130099971548856340411184426245001234443975703052974397822757029602139420695011467306681080875312195471108175234971087500511826974145231309369388375633950, 10123805765373857537419201488015026542090241077894491331711802819338509757582871707796531696302420474937894655967351385873162928145831803940286143305749097752090925812915778286, 135798288509101984057895087358254737136848474710774293662649082710803475845115927908770215783530140536409252177499583430672389709160654932719036652744319437579962716369221029, 704675401551093943067843610141940584893105465206140892473009443373954564593502931582744246390917677354144892147409662373935054256116904016170607388927097271306791285286230, 1133116935845049553154531630488569059330908016429492271624284427409594076129223516473240813985342705114962478172643260006789845256435468215447615130966982795706806038539],
  [5046209361050693604876481264881216169205290259508863528760577884093022270464392582559311940197583383888547314167330600081342445921891671372566227676775987452643447291544614056751752, 721801688316510046845814963768792023134624907204051997070709395122934452048255935615817443137907062188339155698915489296636751761954210295252494724883768091513720808854824791014963, 81502532213672732623029889886540364972668434141927885040439107122131732729969127898223920021320025783252533949524062845431193874323729836582321762694178050303283863793747095678392, 6577531353792412095771891196231648239011242270330176070012741616953338748521307439453374622404028411556401712991731098734716605808239656056637177555959982125346553599625165172339, 336494545864608892023056797568780798583132021460620771750704912704782904637302940019649610319927196487897523877123386597139210888123715568930760800648906522240070171398468147103, 9498566901723132600726501291075670940101047983364519514275414698452110970064121109524189904540107857032349735385694923609146459784237877290031770218340450267522666514357712744, 125661810938637231122342671983826905190253002367319279760217875945556470558664537390916867448984002797062078294142792756486305924353177247761604440253180276374400231473298800, 640906698395755234733023941268585267442197922413229873604865037064406448855417840421757249832619349620343891977476255509574426598212156333185391361475569754733911127480536, 1009215836378974265066604955454158687691065278223679419151904695669803335579810901832788369511467556989365703279486457185697755705957705252509259116456338703450872099783],
  [4897655414208076040998833163331623590098352152611397272995933739459898723645204894959582058433187694987640047123683093804564693243945928370988851567055930358352942730215018135674358, 698335336940598841429229595106619822285076690062707222535464552575486431869797765351582746708350571952826324221268561682851418669032034751982457202325594675277042644577013157595798, 78494076734024285069301511320571437031956056357528821393368901354127882069634763373194688328594686200305373005311748755102122193324982416832796011550102418535100039329452878052985, 6294646419747062054310201366202048333929948571164354651640968020218643719097473183106396152731303428341997476831224785637751027342306183980755162717776102774046640433161433463124, 319319589847920692031858751674666421898010522830657187368969738159249435071289963785629993285760073102524613428309867064048139577759179629563096252775304156456586471654973881642, 8916533019457246112723633187963854127228941481533008390117352776461308628325300086284138117876658382045517398506663053738051646033837610437328924228567429887790758733855572456, 116353890587989519101577415666165652755857195543938031910688073200537088546537541245259833872449043891182931394335083172894190888939770593132056499164426628942679052809501716, 583347465242930148382670210963145655132759225578142341198614925447805223405849490117663664020357900626307500479093739050655494157509156926845243461002547550545766872245442, 899700278791670526035533632194332224242832291962237335502963403355853090078555104705573652021263381944841787611867681976941010679875899855180632346961877480916831206945],
  [4754842375108398343024275413994385754662173738401427643818446113485328888686055077675468861449739283205083253091290752766222033386919626888979205978193882898586511138232365900323500, 675838049086409175662201315038479908728408354921208540189644972593737761191725886823050474346892837110664682541907296333198860366442854400060378405950962215379100481445590403831911, 75621600277981332047244380482151051433866399554323384605065500525458363360331824042832378563496461582458258473011193330380781329726485507012604351078868081697486247602533233752140, 6026151639407860808873484858273321959771553783286503140726927895021189717803364041275593501394815236183373664048464568350593261898983245242783917714975350702171263722595451963951, 303150628373346008622481168744170445196945915075220744720395662613974085230791315988863188528663493258109956853379990026240685710467933171208753120063678191234842172267407795883, 8374392135069927525699988801021806679931075556196558449422760585238633511422473972901860898477285168313268404044676986382241137427255649757701125821778037848950978332580502645, 107800791858781602750157668705043229878721671010601064753359229067253667950059661646204121001578971585204678762356748194150108023130280440821310814837534601761543284389884680, 531349718609621593266758057515886157898630275669706334913809488904340920638963294543727024054441137291430312680031940572274732839534135749064090148940242902338220129982493, 802802284428201425803532335421336450321107987061073789264198438238057410039936482411622004511678540102510398903105005195889001153802944028821310962680180785917018960948],
  [4617494206247482246429408282750240685735333615116720172595089453826842532330960900111296365106581116774717488139922096108812708423645405617441565045208714995033481028188163064382852, 654260933278066602609785291259825716199201784883185272414845174536717247933004624388922832307235733455905585536768282720834397607335573130107666920202879260114560176597062467164064, 72877777152754290977900596069105569720539639978990807739246560752236366891611322819620960927469064879958429672142605865794584123344180180875771516446010202418730124693848598923465, 5771196976920977590309873591891934643278172691741886328124218999100343461058941566539731447243879414167757788118310766435727095915722728865086642770828011186101440686169156035853, 287920883591164064239538386650297130477894116981460939332579437604932380072951243892162448748490713457889959765549826719771061581526631258639866707416202941046587819995363942266, 7869111689927214089324489214413716769248225778042993996402749626399353406803070280709551818942378280511485137801722779209538506414907081323721965285153359446178529542008992184, 99935884458751297194981722706923895203201920527731467234203768305272365316565951593061082796666559501752982800224825189495855229714879604954666749228535812945167653284698811, 484337665305722325980950612872931983240825699529882996036720425209783884229146555382536831150144109558922692231756529448383016360926690238747421294028927449573416151696558, 716983209560009753136866875360019921147725296020213441480482537815849582175391081732007174303889814676641672528122754817660664845113843789299812843598129947130084739646],
  [4485350734513424588173534173804127821354846555702381356238964167931354841229169823353948660091913132249795424036439107814676535756862803018789468654884193551314887203965307948430671, 633558019775485403480633136059634083218718925729629074036101363425258196418677455684734880310051393889615206477609472349929744241906796402129728161061589808969179418886228402148118, 70255741473851392456501942569518790287540631723164221516963553466789536136813961602357283365703367005269793475427944149506924751924927769920730073653135127473242718002941963677880, 5528989767000158531066796236006686683210715273469484932384863001028834011876157550606221099071388060971008608131221155422403816274554038653918413559025528523918257727285550423578, 273568544401970124490889889611306787308588642180911692425251125093957869868095517446200968338998268766881808281484161653903112052165092153404775511229096219171199696063911556791, 7397912792281886060071471573644279911754993791018408128228590454806432016258195506316955135164689096868308669920990312498845277212954476290020824292709684227310977373824662252, 92698905781805627242880265767917494576101784423364492457266344100761142004538882980607178769198586143299566350415456061946678945791696112848120512344427304882499204719883225, 441799146908006690557152788538510227441177205745787995649578586574216669722943072113865856024313756483948899332725709437249186079254526188870923155944494692773652378360681, 640902431413354485787670404579839341856600754186582034062247573948513847181914937668142250691670157071634262727499320465537208805698246086998150677468705229253692460566],
  [4358166594429127075273549401988119505382779422415761034114379035690031388987566864467054496788980528863119029124308739888972661389168068819920652871352679248735843724019482285372778, 613686058729078684368694559236230402958756133497584365509518695663147332413857530878254777065424804475299259841564340984429073372027668682904599284583514647505692052188388132339321, 67749054171214866144812349216974900966222036779234430921456888426298912283002558035826516325254721805056433090775557698757163881261094860937035858412769940696877735653770807548185, 5298790352500858064596837340785288344014404174635883590138794798789205162835956185782100868114782193729806615257921297302260009518719782287273675342440136372143569290159249598500, 260036356716868491709914280763206596052437724553130509788221600530195212291055109065114534547299864500692245686563803921545682854918864207599734418782967882658468032837965873620, 6958247036583602393648758115133720075186529546035636299028178161679718677002182407659224565382633227421617642753139115882818823855137954257768435124773948275292685548799739865, 86035305395453415675831373403598018972130781556843287181714235237926351923701528192568186349404956696316431713521590961393996291053387369232053968543998973062266649319611281, 403278159251506275055995094862164858135659982915249305526368076049008575795024737523506868441199536268233210006530857408647617651019584415599873722872189537515632655707408, 573390523672333778041804049818580071138400748484445118386353013373421880245073918306432046553029850128712718143215068125526037314475460511464581697663719008427200447701],
  [4235710250995497703342686890349168061464074023647380251468770492699058651239742004750946578467745942557193319103367180567134553250404249035555840681621110330269460389112542880064385, 594604334148738061641440748333308825556562375041568335519117221386361818752553562661424733212539468984896961123202284567339889167835842960974687511234759918216849691061891459811704, 65351672659861277938252401242112748733512853086656859149811225567946275274104285859635672952968762365885214563718584710551462063680149015360885217113702510233671739889631375453469, 5079908091240681104479433712323041557933631767996848815396569563644757682371930600359503891544618044279726440113184217591592092869998037027949284840873678761765645237538421613311, 247271250874073856604133682356667597360536469126135911729871016045819596922895776482526688471570453368576118426356845740528062017614056299178614378023678709908665075771684910002, 6547775621837286654558283223933461067034380932671271387042593632173557253891460098925803130357405429422798677320666513545606468926197835952935042964137421728817767017485746512, 79895661877987303574330322060078725266955822282012529096804454403471308356296365726703802832984740297940896277886288468193926005121164810906031426214572345452363027025355355, 368368304171001964836421050226435002719762112774976662392128679317495697009528634467132803784387264513337056870414749442112257266972866651784648050905606884889124482349791, 513426247190259277108983176718644578945814998706717476422489463176743690989132672930781620707701129488634887946669919917434550975829875990869578891297461871506564952422],
  [4117763095492536754702845915453870781861613526458633891776605809103829051345228100725928293730067117127814126170802247528508671725652610213166632468933570303334027950493486099158658, 576274492303179897025873967384989488852906798755796933952061421388403911606812973584954027705467640401727414218181978677308428921019911698978019246028867221833184367238731558831478, 63057922935977576214793727784464715309015485423918292236571563140702446211904164955357781656200216122742155800302306590712341674354856232809566906100635084671166623329121117998171, 4871697697634473541830803018761468766284002487516958617122024653222287261590180994535809689954435229984472104555203881671138473268932785495562674124581724393153669890380774234287, 235224002537415143219601319695837972270241041602764366444348279458090816962346154892209810691350142194763129925799164704924369654776541887552781068754960400144185814732526664812, 6164350523000791868761420735688718654916370082803542047203589879167266883587515165987905992906922649189047913462145296208377232070936463201326069093165786832811719274547810266, 74235163480839301637205498854468923027045936532681614612284613028169175719872251617805145518446371902472741519422662965466515732135278827552340782066492774224832858954459819, 336707050706521123553465795561463124850530014561761916875936126716239961613773244653037384087817985771488202209185871355183589778486431677645791322735899661355419129599130, 460116787495960209573227443052724915349157064837863326653055413556173258317266798474806978455267582550967000296129045318623678467322553815469602417818679499109014462554],
  [4004118608199095219737911225285449078789425808132819207299543870281243714304468678809191411103793729972177100557318541662657611181609015968320919313800146098945114897120946742488007, 558660383299362754108390132355090921737917434029306354581319960772682358853783332365901910543437858264621889778595692120675681100014321164439249008110228209990576670425694640122845, 60862473882993027829710895086489147228836946853539306869686405538522901724574746578769605335148959465568477072907757187663113637757168848089342662528005966977242481138131372843622, 4673555888218205215675440719088493163567454383092431332765939969294174091571168149155064320247498703782696493050154292738111886655238648809804909015492735450080079021383288516042, 223848923795748621971031395883743324064072017639087039546333199488615257832943618297342077188272526308090850340352866404253820435935825586794004420122298575607346388298380860517, 5805997497662152794858440296034798134992417458915922485033520094900412185757573063778810738634654358300671855854151385138435376011726203204036354166698394973642442228525002260, 69013145159505802236884745139528696121208237246234828999889231693091183685366053299196667699930219546431846817440305838865647158944077942904438033074218308691163860330796671, 307970700028803515432303874014346522099489891424693297723548582592613667855922359054656790246472017801154978332134160728517835100380799238562680170672802240990968727183675, 412680759199305275272111526112565344127899270914510139369984775342123214913088622769241864390191732296071851797961781852499867583888713113020877496062483335355700844993],
  [3894581582536832682165887858512275459030382756232762938918216044033014561365669944453861027873651866093126803812373349498437908993754409375503342652823346309166598377236990352486827, 541727914711201081100899574926207115965811815881134814370559245142833458180039963739168512596395450285619230612341771130159150959168508750719264875181930548438721029003458142809019, 58760313593185377877180578821387759064132266219339293490170016570322920268539497766467243078653360096349016029422262186321286881302043551874675247989200689739298189658877328293433, 4484918303254811378161142361401978926123556504587817563221054350153109605512013639198821719482773778556531582841131469481274012423814561222951440624626692765174726099608278603335, 213103581530444998875300136945945238241305559936489349870218746631779317230474611782259896658190412462365446441565413874715603159407761652569902021373701101613484854141208311810, 5470900735021697552963855599746629078094965395197131219355644846055978363265096179201855070452761644997101941766756154192541700681621979830179263616007497050232293521483486211, 64192675442664496096922293987048367311711631277779640807325696677702498607715281881758640055112185002323265635545552570709868623771785920107517395670001998318784532169902226, 281869962896906127022537649067265530010114468590020822676550429847614817749131251507225861220819389937371300610794693389475951656048137695598223287781196088968867783119830, 370433571538653814103401916072691404925272446377533740796612159075836196825730095794908390580221929457044849981424084915905092328143152781432733526974805922627296654418],
  [3788967405635881848014406805959259569498177662256623672306515631779593276431113523374285368543465515544370360723402978696337428700136112336517950173968337046379143534557621339849442, 525444916233841640613710882336697199434686971980727936026951007003879446446230906017502305042626540748398639720314705511685348597149867233579302277717169253869427061662638312091605, 56746727529180831339229870920972154311247493465129452661780927567763027295518819833086237831555350128814794666303293053118178283089542807328761997038085181726411618640520206739448, 4305256679393327010721726881576778985779179751443517033553205447183884182661361563608480713121821773349801301365784070745318412693672182154401552453930635376303079774199840550922, 202948540426513510397173815890826389175449038521178763091279365557064977769138261504967895719978903356852582609974465353902323873775628634007782156919295109484480271803085990652, 5157388975976675367555511078501183912411266589001899929363906443076108684739646416504080979526775184035205353760416761555883021453661286803323915542692898034625183587706474051, 59740187413450487605616509800416759267321855782923945999214545947396079322413128756236525441069425239076447486360161678490923568363724655294780235411708798715293382197441963, 258146070910576433626993562793192893557819741467690956413800294522266829080067241955233289939732647441474226823248900607336270153483854007912150137473908389828931134598708, 332774811504083154025558610796145331282524860144413315379545405616498699998668294639956599458978085812680619828482358666223073937995538012461588360742212119429125748150],
  [3687101390764366536702364812768126285152840444175269064617408757533885458722209566021618366316870917564497558974972929633718681599367552031932951996793887146987982673128847459325039, 509781014435742972847855311710030262766718778094691105579256923342482199899984416310869104138878000349237679757661544032302510793520933507735281975719331355904639657432110646978375, 54817278366528847263824994114096628004226572066052024272248757385302507774661475676588884050418920123475784903322970495835101531917301896710391226382477315423804845289898688304993, 4134076250830057495387621794745803297826572286444101371294877579930282739404785612868408622494771390660139137766795792800218730458347048974378174528221714544428689068756534922829, 193347128276424669506214861992961082350465132387673748680795781918129334559754077752044351060881520249725529038584036614064701007989762943249259806213250973289294704647179513968, 4863922952255212967906322288208064271614485008489662061910388105457396458265958971490871544835570806495668638266651091126481014457367011670798210608260143974726563443093930322, 55625148776255731857730623914534248509036141880808033325059250738076878617669412462700542317164179624460397826927617128459092481193783640998754566870523865522336531698770152, 236567353484066694055102881747655843688619144431021753939101737190911513336298281648387028913495756006508241396550237819637854150394047477530240159205295228646842694120992, 299177353218584079652968589613664108443124989485494801252776981533899856153792507048683410949110126915566673221701429072321150875087245466642089218140508096342889304758],
  [3588818157466053646530783765421966110518558282374973502542905940068315377672199442533871783349330408914247443981739574086959774391064958687911104894019059494458172047459170705384493, 494707516766943680400191261119311956864899215640809151266696483802808422499116594695129214324423506277846108284838747223071290605838759791601928520474096699145879815774887511311605, 52967787373599572331327070401563676715922000115900691748687826346388079277943627627273070726436029243033783448546770680705698815201753200831153084777837861796867797697709658900952, 3970913358632226303792479116463889069038036455405135391808468535123281914135411238204415075553751648770641118386963518555170312717910848486726386809319165562182748718082238116801, 184265221468519388782854110286747995583631507090151983171157544519140624096052946673087210069441237096150932042490160246497582605911972563822919935377378356507757765212879272408, 4589084009408393650535913698738602515844748824142957242492706152242458001304584117346893501152591677821568846645401748194525650964041762016433197662306738591324078533714509628, 51819766591321991138007137494967372888793541848619885212368581174854916161230495148259077322069325738301159651959407654861256839904234122279306149681596313981818017487220173, 216926221614374316891115435808033919355749565858198735145091729461292898657095319919383575889740487090995607068992284511358007606833190268876072407094553485369492081880376, 269177946219939104203938190866466778223913440500686396281436232768073826275695840918637084344896662242572254181793049102961866756008044946986548969219352606659205453137],
  [3493961055614363395839033366943403631158728050859758359405623745725208638338891919279081537406860120325451227922847961087616723407958961474757036007748097626647422194345083686228245, 480197304059312764958545468557259945736848745795899626166418573800461947457488453623453650387711795869764493116272139569197368276720543587460073589263020286073743767119612393983642, 51194317198561807472183360859989231525444084141409848183354525135110889239908611470095304393817288274829142084352195361329123654480940964468503862590830305471793624499569406158767, 3815333249861202050622167850653508370914381042810019535072295519337841301071353102587037538666260880624327919145608445979717348916055504886261860148011095492518135445541097711676, 175671048767727549251967481214260291785809204855417405900061459158599693537058924321351255901096428259220710367424197189371940593672889125852724923512525373669850386885020151306, 4331563793334518876956447660107632092354508133808589220638991690886709659229178500443378056197156722811738049963363439160472627520995014051498252334241017889088655303025185717, 48298722790173827788923255806714723394077754322773239485394702352994830909713913133341039568963662868177675105266067528194769591973553040676772665154378272210156468139671415, 199036507371897965035630632069579526667354260059152053453594719574246357507248070119148776383719145002631571371989132048086059945931796880484523972632345304698618396880527, 242369072327376061770349686145958909764295221785405427279929754791974716122560479233984439300775999593863124288339267943303625720243645722931603330047084130598380883511],
  [3402381629920571448277803099805817230414488587756765316139216314578088910753818523928362848088167719058443034549869955813721933111323409291637176577691429146368385368378299386791799, 466224730824204768453723657315294443860802577096219487316867211250968881321594328387155023461047512315217080061574791913456303409678178950382106538068077132125233050085612937031675, 49493155945326547407373882272377416264216458070301543592067210014036712392171949229166074700847105016340279149978574401036960050159206009620967186053962535908054104093640237320790, 3666928049900919668842419173733349961474380232598474480101411897816221264121143478136072889161583457535495116130665233226953743659465529968629852251325112308711212897963682815919, 167535011688374739919263459705101824764201647529220788597581459561120870610230295465193473140853141174699568935857843767187672606418484289526611835524670685717518134164759382190, 4090154893129554299400695736250807398954315999622523750027984230466313138211051116053324513277332170134706279315592088328094970225874449222496646174752879794690973746498276781, 45038937048168475461709337590436482135406184084575556187718188288954119517847305957228002186649058577730241320369094776948342952147648281463233857286242547466531669320433565, 182731114796292831615326904123637121231407106731564542189680428485173833523980373634463663289298904158212841987128613559991538993437441905982834605150034038548669054978008, 218391892033094877747315522188317734533946227698996800626286549841273341441557462825147993600291109583277497823955817814491228751556900178092854218182764673071413634704],
  [3313939121732757378664736066414085479318398888540339524036038131355079808787733700439171328511164469746759971080614940674437371741631921718711889170375445573892041345905784977288069, 452765532715640736784291100878266074674904524961710640838155589476757476601949155262214119228698269220210561507594584792834005027311704170288909246260449138618927260375825263405929, 47860802431238362272848558801992630071025173372097235274088260659775241907244873915909608150797573215270993794800411360087597185284985156456931741476461023475192336321403068887382, 3525314892981068162696775229890434671824416522882282128160585476647401631130249092505457069221230557852649206151289703364928099230327547313182408202016702471686477482509673472682, 159829519929936001502446598279477567915042755248887343331509785076635494184299717133131072968276856420114327622057709160044942317798920680030644033888661197331907521795792683704, 3863742344650250519395146628137893943685124497308083892573667061068863813755118060754155200356168454563685823243303481007790807210468823792022393555852135606656905246756935231, 42019353995198485669063385717276016766345642310219245063616953642276250489836789236032333171165756243446039413600175113994550730157205551119332925072454625680454961237996368, 167859943696414005534723658334361813287357079559548051130187664049948244684039761466507748339031266921657880417124538440888967482604357431816767507241935275621894036029133, 196930127770096654687075029238143677338295412988833295145592524783695630363343810785129954936175488493449086298998563865033713228026041028444206600431904735454780653086],
  [3228500005232968272128110929915501000756007327777243625569146715689335225267269709746610837924647577738343521911760377413835203088366202143513949728171980742044856632333280449182951, 439796740583650557282529900096025626200382058082776281463604559529462968360488905360764548758436490683475221443208860400817850891613875610121562921570837275873744394332449471689639, 46293952529099029811411348504207124668658079245144285336348317620629991263931745732712753953240550739475754489925783231128895386513930613498855185728455286791724134220781037130302, 3390134197304752430630803754834457381870779710536725187140163864993086209568690237981697305590783077396992078228256867481561238630836571112473139307183788433194819397475522926580, 152528840499151885320669888782911191017203000152602457885442624739751988363707220607354958677729376769190686825418056840888181699711406867473887106000688211607027936681364904196, 3651295909430529826949060912061357638360509783745506855120347660460232224510537101322474987867845586812342950859252852584583569206068252473581067125634945541627265860441021064, 39220752099662347463462547023774137969782718520752734835926927828483735733035863089310842686053411817183052355338380978715365114940361294117847974804776431136902673404904805, 154288052867378410720003798557634322602987747913502067051690951623365145170388805898667080420570622205501860190293647541987742538748335015636310009201271720555401167531306, 177704753756139903921206534347563024011625203158698556491673691382782176404928537203349499949876319104260289505223490788259648716465755231164860116384626928140785377306],
  [3145937555385932077542413638251627743870843659628115518957660044161753654529504931482668935146441223619453348592704607122883378904575509108598608270120334398027644934301991975882380, 427296600593403818553395666670079894725412591312299102751929301103490576555889119382021909590464042065448897157134272688711931002358807537495107962913112999374730233856989558657206, 44789486504933831730074161342850254515068285286786821970840523176044306541307639848629845371525335124276395691929684774770972014442465093645880693802939344177878775068691786346308, 3261048072464888380157028983541736967255689850839147930340868612279399936922505749967326980341469282931748204287654543358797473938991622827940221345168625364429075488194839145431, 145608959278101603466408572587554648660140930326674143313149078177118578069068827885995277889157754364967249296565449639839851052213757618623686907624479735140834418612756424164, 3451863052671724682920686337706574960388674593280799707784348970131370457658240903648041041698542050628230287430353679254878985455696875591667483373938376313182630415811462756, 36625571870916582198214483235067876050582913083370627700002896163769407814471263339165724880037762636327993061566107909553752077451015042686162575089791337590913865875088682, 141894033565852484852428297956153978233481064589800262557250479250181240573411067151602417080886163603715974953995076965588015879017128520793396168612478680807104826361070, 160469381049757107927406391916134026645233302497339791131823974265589599988966093769927663486642687736478089304231852598823251214827107643740852904130372862771147901129],
  [3066131445215942266993241685499471167601956778896520177546435686182657337746931715322822747963585360787493831869140015145689470712930596240226512196981127576365686120232240815212201, 415244499931809831678845048084913891427086538274975578026476961149665187276706009985271807796399841589932879086489434621223073529049034897285131481703802740730854634847907477985976, 43344457270865878143405016171059522376095677051094109180471203417699756248104108573763019928055404849184116035995933666176895342626794021214897589488542672822549827308752248318513, 3137738847978624809482816292833548670815968478627688630267869986811893233255544241759845013063850356680287290183801828222771023382761397771070248801581442558192206279173635413898, 139047453919512139062235136584429948977459596052521665830383780879358367103296684897475310725411714928205837093579231431434142159278238190371519724964526113417767329737997323771, 3264562552076066809989715693482173198011657656308196489454595082781536667790647007615336848999704172348715490418185439181522760312998090270025319341761294505120245754761086343, 34217761297306978904905940022658509713598649237443710812242107254940580139530014756113545093515091907541266765190239804617469820216486929643842512147874121240092419546549241, 130568567825068298016598526475523541904271056285608800318915239647915095478265002568547446760225203658481688756951443848553339591650398566029346974160672728226381277282438, 145006242520451620861084132403388594604223552729928678555914791520770612044784682639689152671673202274245502132320534654629611546370612605983838804009458713741513121792],
  [2988967370191456110154520316626563125300713693991770166401321796968738284096779837899877383206684291006834758870561384492766855546291218995863993774041776779163301093255589872360959, 403620897664901034388825113546314484290346097008170042284653187477185381651927887638917994083251859016407475977460664570149616489499212469468389266664058405133092268704504866621744, 41956079479640651074442535698009719647106122069093915219930716434119948606165492891478030374771953007670525596832994631212240268370926203959907389560202663141608266877688349412883, 3019907712798770448516905629710477126238544567368536624703319054097086480422566989323002345810967332373274156613978408417941466494346581869823916765586281694232080419721174694616, 132823377059422259585030891831708566030581632281931148404153180398326966401760459319689650924492480578089066051635933551838843794351133930200664141866562630626758200356451158747, 3088578676434956410347260450525975552650279080135432109992439886328302972948813019120495202184235270338120263690419672707868201849056124442666126888080576771427242849472718434, 31982636675517682659596309287621497005921497620021284913215768570350967884388243035845633599265042252611802821386260995617780431776147863602080538521777329925748509841605252, 120213149427415767614461323857115552835447937956716254841410750194211604150582887287159745468625076827119665923786584010471687042472192525775893178136266904146940312384794, 131122696084240475653578128354166880774344865110053428822050349061487359182723618137508262426114794917778035848729807938924292609006494602880765841230358615558015927785],
  [2914336697681487231207746577571304727003433082565261799739818642733524618751069615206437214952555798530065229231402918042345654408235674017609796758728980321926139257826675044827878, 392407260346987362848894291049821076775515160932398126587558346170221334521824246373817833578442239594071951117878201439157963881806183978448272982999593862248926203514935450123820, 40621719393823945076136649511321102596797824154291387872987675313008034253307018828229981497708495028315157791696742265286710416992865837272757204067972834120457730033038841127141, 2907273456588049313636846018372159798899691351183815861564079387692038546496183620145819315355351525157448005054834736364659880112196561903549067334825439598707348653315010857163, 126917148934767393701942188074460457693405467646888271903159701942454421958640714040139029648740373298313543329227340964856921898800767412029798026182355509063910381877340170753, 2923155879227569209380743313596203897198303224512391703951023984528278683687786806964268821371391084899323784476484779141858920558992358304700620884528441815491734259125063102, 29906757196665239115465227737605715783952110248627694229161042378296350289663703563336396461909697608429320370780522697637322840570367860452748889947671657612419255553958675, 110738948155938908228632700312175993889025531316929965240681577285643605167200753011823937218607979395147965262277664413668125359439983397434051654617825027742199012788387, 118648176166160211599881739075780300876333529871049429777024387453996257890420972810264238263934078327692005564891662092193997843410692884743865451992131215279827617496],
  [2842136139615808687596921988496830817531001971646118102173559069510469230985181992506333999564534448782174159988528467094340541674777369706136104301910733431176301308140918483118403, 381586002016690562006235400142716267749093270202411970793602246437887890400610984707031801966218175694145963054039145205067343257701116874783412403913644904381774198522829913130087, 39338885468554468225903495123286353375976128570068036012606539759717160219689214834695479304981553441474637900340564453774129991019475459505837984755466415363718533894120952517810, 2799571304377069235016841350090848949333181885173292874022510953803075574596400909331401442224742189137155729733394719404782705449747620827762643672890866653776007009556315912940, 121310458580781655730865785476773976178614727222018674256880245397044533051264155559638176165141318196221064815135735934027233706916144991347934582022398324667447268572653252132, 2767593958126093932356221998780947375009219648357797651130696465983518440593323915193866067519880135964166069348627846992775901025077219184023892340847994430485250643354600193, 27977811839008121312778948641244988518834916007877131176635508788171885547009717253887322848238987231098807517636616476262666411642012787235517718127640823800449797442961494, 102065800377353226704893794319336324345817292639881506588645311921004110734169305585625439381043953519141721947427726462082111201883397280804612974030080988370976666134468, 107431533240151533786462581449525403238638496992660026017249953456307745254404362468938285789438892939178877526624568435167843784323348048016352541001237562239259738421],
  [2772267446633913041010824129792561540120908509759244686437322223739428236429255905751300203431253587906140620959435338209918693319193886989452353057510016472659984742612097047990696, 371140428245899770371462601271226232859479113246687637051087510432585313796070736948451139496520057321870470882766766711743777517222406129259642296405505889898265040329712516452417, 38105219592032276366317791031427422571290318699132442684169747264115510056119056204050051352270291819472908640354067870808736837406175456838952076938266969777011218915839104029234, 2696551836979951607477187500545590784073860152836331059934225221836803370410672289063677550738311999624230123706022857062586320315365874710256731982312101415065623407828701682343, 115986172861450981063523050869411306608583401202216179912462291041980276215527208740869569533450652520925788151833251699112699175669245145802680728808517428094742049430430070607, 2621243636324216093756223732753586599276188121082218436177952131844155577068750741131881835549989981832687804378826647051751414153905541590487505538908931446887711073170842856, 26184517279548715557377025423122159189485837684534285627211631682142370272981903171232991110132669962183609828536351293613198907387358097084253807215406479942652582010857746, 94121311120080513327220944423911976116611477700596344522903420150664612015560267807478028501620838248434082204221518139146396080064131639306837063480840668442466672121298, 97338709729621491838023398462649476532210288801665936808983950664945400859975817986012947014325757070056086498977997476729065026798336309399796051372603302234626903401],
  [2704637122147035599532717057523146218210933684236468953822077423540886558336942240092799098785429650193176890821138212382793413913575470939145518395168899022101801041447103426021282, 361054683935756100403587376919853730624818887020288305634201000830091091057191044387916068679022125617035446075420698148430141677729019291646772079902257983943294465684576585946361, 36918488932723449536214827172873257032906368464677798886775563092704809748243098376900965804472614003221055225247586793128270544841361650562394704881885402459244037842754205265156, 2597979990221303078393615466348527847635110431562995058561827906318897587847151557740593573442365140296551967141726604752071257400950496889803320064226317734492332351429616871594, 110928252656587386087089107281613956902196436293506245157774526820549123436767800438150134269300677757403344095264642187073441436943489073817273946268336880151539684583748075212, 2483502526077913355890153416357278788931714008639267165990285568585120990307104077179934362654963240282421522262657002745169493740557211492149271721835725219030790044229517224, 24516525679953205354387527240484496097563501319795060708966733209893974059587666849080419342256821855171414988867758467002482759385799180240111648021611962143038394199246416, 86840054645514904973284391417300394072680324472120526096548040669171892405175140358358201428968294931900763498780956021069461500608636046944839114790351467253033035127509, 88250707752064311844985889868180932592567341333989090922645326224319021530184553303660129011059064508434992232630005458144963971103204139018473401480049584749847624968],
  [2639156154864625743548566496778448744025015998153265443882064011911530926757124316971117009848209885575690482024317588819340377323684643806508033598618848293121720146671336768650839, 351313704579262164558066933469472536083026274947599089314108122108321521371003332360351678719057842128051890150881523369505227158836129898420571950301046969725350275101432591651406, 35776578346611120993005059364752035754080934708798487984938785823068165080869278627094165192559170726433897890932973689451124917602656329845084843717860192399948144856628830071392, 2503634126642299153947233989426032270591121308148749853534829897391181591036682715585158769025664220389105865289475791782184860198413934931041892354977710593954386381549720027193, 106121675592303469681383873569970203167650384647344209558342811423192566570818159921946203608452689816685913886468054450086888109097351822805851973004256522411099377598793641276, 2353811438835759479214869392805939690220938864927362528531377368446832712892133968035510144679689662666586117443232435443242159359495542626317277621671057529055697511809752622, 22964341328515452192853785141046145292470791442432945417768205969400402652793012306285875063887692083563619380072288802877867246325787928117356335616546729529474243691540278, 80162862107149494988799963064639936714587084296446728935950803628898974010910778819648722379074348881236033140862396924226937762974164308039784851473699752545297543792319, 80061810345990071476197533274723663350914941224350567360810351824744374287862612877939437949991481370750993031997415639262710600777332334039202490287602475964942769619],
  [2575739768452608714857122827619901735296070547046222272908382529288284113497822298308508652338318401613714380042108689025502962486662789236090092354214642242170035775506096567183202, 341903170733279281819938454229508381981790397698373851850664478385133323084683301021031799614105073297975780558635250029837377735284466353891016386431720423099294215758109375719194, 34677483301768664023509252258495688409626004778157761786301495061213430500453102791924697871294135481125154203320502894782637752214544567039386737931256517175816343794812301627255, 2413305173908920086528197735514110253109468448768346571760967699887801656627853950853020726673962353751590279288863542053185988200229556087689888940472212595831680788296728134394, 101552364758521264951502127521532361907292268902612823368892962122286534206912411741234975173623832307640918780951343009997113662764466791396890972348257014559126675886297543044, 2231651009895496515972615453743256904570701250660390713767575338455195534533724626898376481199876422438970987129346449846840873765216943166768168139548550097069090208003723482, 21519245231436584306228417196304229867552496992071208563806983006937499902266002976829115874370429494017238827937923219231089877726095874007296826888662136891765725254139098, 74036186282738613538552538627293241097832554729629877565260477644282735163800688288033681599652237823389719551343258494344596139022012252818250907570001342115872658322620, 72678023085990491844402904100400237123436070909939995137853092488579853944749448773840875124375252091195219372036701363843404365601114261913511383925661425420227189380],
  [2514307187096660041671349945868163153662068341960192287852872793947078020644278021249482668841875416808409411270160040844125174148305511579369795683062568773991146368032901048489299, 332809465463749639130884954482905710081865866768835207343459729488836843178240910191235462972772857744735775574653391033558148794419612140511153413475473135703715982514019928868385, 33619303281113104468302640517677704318098376395506054420367747682677773918967485832614386627773350603359140833033151508727289986723171129010934910048761322632030938285513379318954, 2326795824647895894650385534690350809083020552259742032044592123992336876800762645031413346697906466483368000040685610604416565414984755313408456922002858688633865158742743113099, 97207122908333995886184193205188289305215528640499140090343487229655131988208927457079504545142623234588915201971586609643764452460746892975932817617513517252841605083939287515, 2116538608703581347624717570733876956695355828139017454667823664266756272636186432193884480771980131659913852668701352599134651509290199199085153147371694349352481835347579207, 20173226845301769735142191602433706812816349076101376355794701747872773604066154598595719811011647529372589453318122807563422115784231575717349557171369327721788414643846294, 68411534577164846986822617035337349516277765262411131866946921563673316454020597768795891748458492364005563679273240415578224626594109142338361890759849541751783455716286, 66015707505195206573730986449388348304049066598987693769254547453649262244282251451483133178928227121853000533400429282737139269567440840280438246218004331731624148398],
  [2454781415840456583684556603285528997224953529310126972600015589418221363074233167495750860138763838961928112592402963585458680567481911606659424167502503120229296239816311173551228, 324019634547167817065868910569277214754297379361558497537641387656050529828244327971392358579444811328506546700529926284322057592273662248936596314462919913791835437533454657705860, 32600235627451854461359741790429978354802063004745960762118082549211116505406347497169952572138069913815881121301470785797230934161910570445802609402229684313553166610751408398857, 2243919792891075480068637536632123671574615382682257787748676445906536364127361339683420288182524503302863828159546095722448547350117486436461420103336966678951592839641740902713, 93073571680158429728545732179067039092212418398771715389431128761696894774349963293715708400758958604293316335115973660012092297525794973685377425094073349891924299755643427324, 2008025508757774584200201596688933479919072507345024530500304962181028949407916383410396540824449909570984113911071030468788255293014188734237065277299550040739886941329118493, 18918922229892741358041251319921402151186209036639347702670996466280363951991081489654912603484305735342899837658110471900320909816850432382631224765612050127566155850214804, 63244962552009704080839565235430874774904492580105759153670827687852294026701950351718649710551450305434608053327817121936306559702515585916067004996265425351539983778134, 60000381616015964195471076049289193295718800891823631862237250374949421892267779941718864782991086149884474000775320180547056559408216317670331400311690340560985269679],
  [2397089034657318676198123622958671544135041514015091302702579524152943062579986654147253298410084711924697086416858226833770050987970925137822074673313832670874255356849440614636404, 315521349228809071384059386542617185365061702804460342690103569542997145554827521553293446667603483401050601267931547033446376930039963211778259111638672927322383651037701235684321, 31618569797895979123872532752932973262366164752549636943551539043327322342344771473742856157188858130842001871192655219810954892963455526953901107471113502940329113848855044454386, 2164501122721539306768845917746341929706838277223757949647588277010153932872783802608655457301395370090101120927004206043022207655371997688797594309164806795595446395545161282097, 89140095425205768165175985277482877929293809238960107308407516742847729694796155181949145232794148060587516820891513672761568450178949768802984666139731325064468957689356732606, 1905694293617483461272285627831706883299142282656432435151376716110027646444467123122343181000810313900998270517626673246993680280136389129939420036048838597429476636871827553, 17749557977758343125541259019123030899320297717377602730233230403843566377718378334394609207129463896722417400368323017378500355912183516269833691353498162184830395584159358, 58496621162529770287729943002609834076465229018652512457875086775692733083232034577362598529496711173447910688366465677635057242820327745650489818784792650546052266539549, 54565666144917439742827412962857291999467118172840839131984147680116387101878896928831169844727285620798842011808648886408672043212816849839327534681006640915471269394],
  [2341160005294580356447532361491504065815470974951712035013299181096437004568323446243425568272060360780630632372490677427515763390301910959074456541657260363133265468401248217158010, 307302871354164689652855226168209820213143485545286225822675390890312872710438070519546119162003212495190180315676804638714553912485132879263577960172531865544580992112973206361145, 30672681997407306296051070363527019512065791964426786719114375545542881927335469771677861619199701999236666125493235891452473901853213011800603024038369464320423717767872235969112, 2088373545089108901715389200937225474031617605288539992394024123495490477401576170033444275130290280227837546115775272382131069559724907762430976841423863770692802687942032349142, 85395789260336303945034340941484478895181730373083273272933408987823401240249437887897790276273232189046264454927016986213150077137493893685509000699317225835160498893044033355, 1809156477805850869979180445980516748738467493330814925736763278662018225759285208739634265060021170193814407005114301275447300036834471066459555290655221514731230510413406090, 16658900345478630271359439948870095623224092311333154451542696730016751743594284309785792789048144458304618883255084565859895924772236756584575546113712005347470814417173106, 54130351691493158707586389823444809647388958862912024272820483347260666049059677057938816081001931024842098514096985214565221276512332639874389685448434395888509535476591, 49652357955364517854384906547930347424460809917797882240758150424806894501729969833961753696190252675203396418886813683486605617553873246423735345801438939274133555890],
  [2286927490004107790405236790691926556539487532943256803431026324952836549614204767364905639955568639553082332629795968932363636790020604895957391110104380458310002340990420732057831, 299353020704584701361152477880648745027739794402342359191913745403682275685954119698277473606307945071776980195270013243834207949922788853829488878245159131479442877082182125352351, 29761030163700621865626319627596962824775728025542365223053435923397130618370986007819196851979652259757047101194002399598797875783565592417929171944384407302000405493572652619117, 2015379879102790962162351968206451955059736129186120247217172231717589047511533358134521476166417262652339183575510194603529180973879692855877214756363636290259048052349494651403, 81830411000270028676061743739636460442664076409359863055905168607239797215524048039062142076916448719137982665194052828346606178819130749937515510755048498136449146206468523596, 1718050323430911323335983980843371683669855936366735001674230586429062903332924491265902960541276203262277881748621264445878136823045873331914578550916372832701459022829635258, 15641209072351158924636989463364976530775180652564151234923268027064624216761095431415338654625874442801712764728421819421858718613582985722927344300366824313763972651620781, 50113323077366358429607435449182360350043358545013115111038933101867775949546303197588810797043091937351034057297434789615281160542652252072389272500828000930131652260967, 45207614593175269470420506670559166868983445250726704553828932677301074121632826073549749685068096605307405974175416294746607791587084922552605655240520265129173914191],
  [2234327681340251402508228487262543580718921580617010066219214522072484807601273412226107253420776796257460756841619483831493709887568020149764176805404226169382082118225230608859503, 291661144381417172746572979120347939871778144303565544297671740983825873827532419739811630392762050036551580401317605586394432676087646937229197763980821334597992963471536144118282, 28882149277959112507941576896582677235111745334504713680533273518972504423582681708075267242883046125922540582726609269907021774898864016983643023629901560927330788636765364020472, 1945371474416542038901868131084268258843095206264915780383801742408879389564017842626826678801293236620190023679745870492981439134129544764201712140427000495232635347347929178422, 78434336653777711290558477383697268341959786889412252636882036005558333207373535075962165688446088952379875995814235668620782751242884298244539937179563597166935134429537343495, 1632038835186471020331240803021646277564828675636007679409783340196133753128669720083231388639377975965246955615184320699480262111576950155733230805029338016563713133286031020, 14691195426218979822199431256872318340013281970471094041540492067043721004303539618593688730756913799640082803473603194123113290454753712113037208881651848694118897451499429, 46415706954799569779716938431439633022875508936157445068433503866735244028957775996677422738458627592207960846361707872097191955742098499244807556197860672472516834265414, 41184236008024637228708819783647138140459347331816930951234294507272970998248356714585184300265281373514861075491365122031357194276689505916622403572830026662448268573],
  [2183299642268726329562132227636820954039790087682741151151658676884871515013640663019725428985350335787970409328232822154923354092109381302612137100792746577854670738633823727220141, 284217088095079765877292907028370513641711240968126384498170001594983454854785079001748798034608571746080180730115414434967356417520598246744497549031830957308525662770226635521367, 28034646977861878124134698995111732040935464225665660744063458420605735746353404204738825226097966464622347124259572300513494372877882650352849660451336582937863193637162301349811, 1878207691605602555138506997898093986553202611268173598836948698246324212822137338205676620335036717323366486667039212650497843231528407582200486664694022822111788436760787102046, 75198519196208959900320449005175085235279695292183308315896054707447992945319994005599897810141170887064988587485142144801541613355766767215892788860238248023969500472122227101, 1550807918039648499475833210202954120939231335749818637725877067446437767597987309589425856668419067580710418001117635208533214863510196758752954421562334429971429343508702486, 13803984064151604163306978613235667877630816800201069798062135032933802782831426004471979306468970716285951028279701049562009742586039156019787230516920689179551282044779530, 43010386269587480283468515509605428203940732877365160199562862188002272763015342582438448647422156958814819045635256080028205833625037352594674931364937593424163455396834, 37540031332859921029908529228721069281097526677275952415471844755214596513935964720098534672813727559428296587317462241935129002381094233040988162793239147279887483282],
  [2133785155886976161245377621503386270476915682538589638811577269031602995909086246479745134812822821794933016037364321772313667192133234844963822182440973569917925755324720729014471, 277011169226609696598760346244537031356203485586184185273690767109118451540173692808785456227393607032719266266107155921379358883837941905321802820344166194125016783129319742665776, 27217199451285359598503089250739647181229443200185845624872603420350689080412446436812932691924792984863816840933078052792984689897209491332229233526876458049378848565181176907820, 1813755417686256180371614846914454434148675198640334034604948825418836475505935069431689534178115914624463787572579876797991673568883991487507021546838028574872168277153692054485, 72114450355823145860816796229696317851642441135777561162120222943079768385602117268099808766989271764616341912364043461015230268189718595009097898980786087642142079262590421975, 1474064683391517528907843953665020857744192341299227093009515499246012357918332241592406902458067763920643627216848028681077856378870861310967335126485049776473043909533459655, 12975078338386171603432887519778746876147694874349413287050596966201069600350889967973627529330264205953876236753128448939953051231391146436563947098632745994852110915923689, 39872693808093174539555548650457628966123903054506953131796084283866225124872535659651456945342620038831628489409691255038410257269052436108894455724623705955089739690027, 34237260181225524457829553262515534727580269713909987952723474693694401415067527807833911261582333828619986496353727301079481922424270661374564679736711817610394717805],
  [2085728584108945462886009947405046789045896944695875585786571588604555512902235405520250074647432365042850389177588606054566546959623250142446922530603063239635772069067435675639415, 270034151539408506934316462253232658575759711938514107595218481579901645042980896058094534745419525506008099465388596501918864597039401405467891770608043000224981138760595192636313, 26428547590742636747964366401841486026486987898399161022892183846198547880036381724627511654657524781934775043387652303875701390191554067574865518728220580615392377387099517735784, 1751888614164667088094895951990492486566721259826561213214242665610033428981984032253061926680898877071578841872609008123283553624081191477080371736386264685795080866991696986365, 69174125174141193871750902919522260526340962103557262251837261057849646575718666116815660743000253257475775722147262877514016591871099574124492262797339331453309116952950594692, 1401535890827979004725488927409886197647050529410821852790212048209248141946455080773557932721710909137882147324297383427788232366554982822950972399138915685527041284055739112, 12200328715952797542361009477833426608460235430925566070172303998774966519802532621429342796725460709664131198072435524296197850200549516354684658256869524269399211726598231, 36980177401006530949842718887744942956681972433498248235662201855453586208620588828627204272116005136568848666756922307669107504397339130321903012738691254480873888257736, 31242139286467530009519350996781180334614790152371164218317883871845820070965714232185110602855727596497161236709619341572483776071486960085293114840443807107974559341],
  [2039076734715282650936988031564572818006876552462746359749948751311271907883643129209988963380547240544268838429500682854714998141161943899014921391144320398598415169367193350204661, 263277221428214450315500946473751133453545461993445286189822439280483620192540179816419002776992704256093159774100448808818192683067606489152742112490917086511429261121116890972696, 25667493390180777815042369136119984311544619994908480068444328896046225580909646325065584560018313289881801572849906119509600822620913915937576480071783847742634937060096410978643, 1692487895212624800225619631528333303049338432602176985241802406021500439274089478088018286292421930873406600139359873598878658032584806961580551079492340908062173578919776755482, 66370009121167908177268910024983129522976959064396429457517725352883202944242075418892945194174004896348720135262093568390628090923307963928241571778151615102803463697066218014, 1332966513775761308910904739070938719401988368220245777774735828229359417893152956937653317429044596575174734664708372296934645895751271485504049634460880129628078630499577609, 11475904014286658120718447282093513832575164795732997224512007169903905808179967108080608696042249175584420705672815689626851382941373672278852095351586837885784708034527342, 34312388930621391799201961824593662592428151767178108336473718193266262483664415343387508711783808076899296849452690969235934774133884143153882133793014058500220419419227, 28524406486768278442091219838186199565252836581107237973219967071371487316886898824580058369419516493785624411981065857577581436404302052406905093357233713110830715534],
  [1993778736214192516882316209246476916064824852202610024377650143931535197432277030126812684174661558315398532147217943973814874365880237218675615999455210941564125112715090707098178, 256731965600875522648822510839088059188974767054932102001353062751950736490147507919433202887011103975799908688345185303320407822717885629450101821100524991299895189440406034686858, 24932896567180288009829375340646237304364927214425762666308191966079208858383944234287272369573599410823979823105042207262950343220804440528833498282409208483753372630608289077750, 1635440133761550184014178795055210632444172290132877060626808512349536314075482227505078218725843914961125926689133623497836414107817634233109893341715124496901302256936385325402, 63695007565057161311391594570285157920499811929820751415897260287005666267357622403406104816196911447208742844415895773829932639632551726873465465112896179253473976542605595974, 1268118418457416025467868028684187526896029133560100005959987592505196449080184516730619018703440876227648971165642877622559365074349793243140959847776436047809992742186857742, 10798265185345016379105381187300897494430179009892051771744910770913122759356270893523958209897301403144322346057463149443890061350374222747339213076311674894523486614780148, 31850694595937848177556223682316989803458291853431925551417750720346165265008150459435598433902101716306032201853848414951042245617618811092917335511693409617112517235400, 26056935081774310644598074961957261243981836990136282502983114621897972860504886676151701039787480786391883593540909526082515951988761604639674970241566125742728120440],
  [1949785919998797858846910505005052295969093335285698009946364645876983433723858114973170178702570904219115638191561141845376295036526202850467348468760237925913928069443411643052871, 250390350096330384768165275131040874219260737624751784668430269357250693728554728323180932458906135266036549177313388809899141311098171607313237298969991402143227450866687837939691, 24223671394904385883613579449150549420501041377320893997461017783535294565574713765443189131497741294998868266952667419728997877221904804091683081067244009406307603102450549735611, 1580638093482752049975306753391091336113930517344720082172927712791244762170476245775495034623053686406606099600798330494990114691469013267322852888383673153617989691482417317048, 61142437412794909037880378799130568932825770254615101148410272520500223692218853479535595780050415823430450649415000136249257192106224592216349164225672499992563668299817398683, 1206769146511859994594914896301755973208601965972326846093837137719876850884576425659566869723498587923377094783582280168067112228569977190183789946855190064631389082271776372, 10164141407717914425853856435782254686332803612921388298083666412501709136436670314825308365784724514647669471099969558650439349567488609582146844175893965043930049344468304, 29578104176365723280171189111958754203673548921006906229164295722693027366460592958702226292431920058084103165613116420109219790566814127393590019291368425446834813993465, 23815392472288557453285639110683049708306991582728846610340260281269430514488851023607488325462608160194392785010077364621390845339301051786482938293518272621951436474],
  [1907051709324261256854634063443611110560301290964088738653328492157959191875860428046619776431120114146646745425573664577368955045673783020029705534225013567855806779471125939420261, 244244700549395914667675578305761709963485024143663994427303741281419282740889315455592974178612774612357723741559182107398100715449788224454135061559108375112659707794463187217243, 23538783729340304558266372432983456558116701069710317627395073216941084134377237319829349857043587815564676980546759183320124893566095281042921576974709260393655084742002535926999, 1527980084783258167566635664221864427167916122744836196015765414671371173501118229405258704679431892376102127746222991870333779644589824584246602633990349832071510257581967442356, 58706000753926675876094821278753217252395188679760722409518616905455095928623843784086548475283131544246526007202261205366879889146396679035848556414203226185348058340054880485, 1148710792524539927853640736712394710848995643678642019828064314037404386532739018733740900712542761123373311892333460462435062363734386578844106406585630318565489574734991762, 9570508270314328991414495641496877712027127455338347054020646438625107880311377052620535141647624503077722301841054487612432836954796905187708994557731286904933251372732857, 27479117287435776132325815193272963737919036457011060033002636220628494598925547289757841487784392964936249946765663352576294049574120470303114321449775937263200959796576, 21777937762963711818541861510520806734462641504882650585169605096535926010322777746058958099440602213728654211807523188268435574026299239813012820789542500017717537040],
  [1865531514662341322506143644446148187887378157325810319422058357446023512936946866839916526536183865101697289669829250546629743472055971685769125356171281450773202920737613629099617, 238287683619566090603041123035091601993362102584313840540689432612102108170986931125125191168872167921986652751967934846315399807058259170389270602775574098774257450735083236955359, 22877248218469965435054550356174501963709584472880644641322912885626540519711970998723659030972979869949675186746459269273881363066108420131423579230742971930570699454733782939994, 1477369643094004277346883216644619892566777272402951393635633055730890596939922248489782066804585738197047528970657782064111222371990627412413223964710938622677604187260456200281, 56379760353408243635979857609685393365402130338055263484030705347040292433638376962862474800069412429450597724868513655418659184061664414510934531502152582627266244834423230401, 1093748968503553952182416146577867111321782224325696555016421167801548300762237212926859409866925323745272048636792605737048513838789258246138967257189992535911869908867636333, 9014567852745061686955986107756447437845461034691118158761579623090899006468581019634381654090114402032465596225580857875641482172207325228960725896444645163085151075179570, 25539584844902886333494500677265902869119399880626729535838966940989288325935211413661305660575133895926049334166435744883874939743482198095185590071245065714960525821496, 19924953675306327127027435866226384540721576577949104930941528759072973704753675227514036112198530899704104604239182899261041058982690410519454729867814408530695566914]]

end TNS.Data
