/-
Generated by scripts/gen_xs.py: sums over the first 800 energies at all nodes.
-/

set_option autoImplicit false
set_option maxRecDepth 100000

namespace TNS.Data

def xsAcc4 : List (List Nat) := [
  [7004684910587815922248110088341764547696577271144616830641579018227198836967638379005020265962121122270577570207127321458345235979884095204815521343995314579868435984077232759133380, 1766860498828066780517607736655304040728986080533936192241273360410479128314367532136250567380910515497942171167396637405025823810038561100083575749785507623047842633361386056553921, 249824661978919199951029834771581136094168695215170360623516974473122447301731224022210152521843779908231463508265770553884642535692539548316178079059177438776688910287041632637971, 24223658316441627122621257646043304938747434916235030664148214258402308504416617809125145899659616245016844728187104822641023630786188136992708986785440690055051711004592931013394, 1580638093482736556944890453272568926709540475597365086472175269704887942823126828713210387936186284879388659031177951850176343765890152121465512942254674342346124696693591968378, 61142437412794909037880378928753450522504069052953759434801818606462331386856291725359718264115625752262396389160548726056197199629276559346889580368796972277322122474526929322, 1206769146511859994594914899366905249897545447115309720473437327570220864204778324948383475874194325896630411545676048089179173504969522363854416684287454390032507394215663339, 10164141407717914425853856448720815875770887670943816527850246925189162166312306393100294990921534653608818499208458027717140838089314453186650122927558047346421658249242690, 29578104176365723280171189187775086229286497762744344316618474634745027222250922080923803045283971819866326229719718261137348068035308648702045460426717860612872442734250],
  [6836642503904632992385837111263317512653358595192098834754000187613678273645050855295350493404786194315628516878865638906986643842044972174515062058693047152842949745731887445997880, 1699728328833873904139226673222748196237982538549218515998691147306650179255155586226261105326828259162264232301046987693612241464590213672330408358444910455821404749968021062783170, 237812912198400071743575761992952105438636229445378123144695034847312816218270339586872994238062071273782464033211807016976244286538234532667581132725490497459240223865966724689554, 22877238830441682455866607549099200621945773023479745981380632848782779548833170287238011087443910789351351288398873316930935896894220789583281655494099923636904698720051362481927, 1477369643093996154360872313385389065244403277360953637000173795824667367336350096546068830715198325237018481392919061525790293161996116448312816508115666868345395435304294440034, 56379760353408243635979857730509865975889923648833836839836555469548668818221228042982368869236521772694433838266552708364334595666302210359290207703463017737506119279614897807, 1093748968503553952182416148635227435688997989504026781687254172386996930095428158558939578444293669145605902209338575237244346338485798072653762966657794924539373277229279424, 9014567852745061686955986189831013029293861828557672049705605404287578571198436870972801111022498044311935720875638424114894177568723048261811532821707278764649139948391188, 25539584844902886333494500690419705461259012749862981768167436415672297132054473207954869686739231089414809900569602414040922323230359962690966136288885752564388071320953],
  [6673148163128739212216274001877592106979001623778295963751963330203709211470406013452638384300094592243678440581982005485319921510434388554164733900631919229699245202410984113615876, 1635627668918406888176628146505679212720589114872299812416264662064873462554919923611188114099417375821745015503426320391073332889193507473382630567196704941961954834701429478451348, 226513226555664141160173269584254721892251612271216675702410178626603407202018078243407537963883500215494026753194026304478918054966463310671578374818196238255999980740504399680022, 21620513902482553886355650671760576195972713776772621097429851018370726162028298908193167182208418253084039911790907642119618411417225968672221842606271653476384781837321384890224, 1381929940781797138132195851134450077039552891168550163849415584478813452941075853896511539372933585613308648524212561994638562647016911091792315647902652702829082317974282674836, 52035787547842406753436277854421885071103222569066999458375031480727223680465891761393264066741758790701369856373019707091220581468567895147594657034414135193725139312655048991, 992399283648860955859061026241070211520192451916595458610627027119739356772752290683279282432878190019828821044641157381845779972787783416517122204179683049871113847950416291, 8005598320632742366975970467766907969111095743714147688111576410855092641674331721842460877703849647676905476743165694476886723213567176035233417870826824221164193543352743, 22088306187507407751716483159047049430511669659473764173999703525987173389327657445673640330087941219534597221170930403315856445213504827062370055314793013554636948520178],
  [6514068863082459694703741758863283976833964505641190901006281135832642345192158199672267053640085682404332899010450354488122992398598504000439387930841130403017999442052640553491508, 1574404361518539919123030007124639935464162974683333222190429231141003214299346042701278744986428606947779816558983216589877469927928741418838032859896406225400273414393286351042164, 215875529955622502931142420375101214239930384154264071486311208717934021015203593440728088016525125972787035190774733719085862893002998693775762714499692370559681313301212568283198, 20446481113462590669118465804918541690473470152391222878908105763798581374417109697181354166010344905635844696389640909354745709590679747749179200191415927748734842387819926744891, 1293640802441609220948185429738197364423040153949457084418440054881221432081492557957639345874445765004356438262358485241517525281010711302548524114638731501183527779945351098485, 48069406777144902998412227881173030448418112070518787832841834106881682081832717114139051776589497014689222976022663155662322984039530720721101002848529283378795649108602351813, 901400794928926657693481590585319615141206652846279358804299484339721433355018821364006577063168127004775085071929686112649975795217465494681620485964834249874674067560315746, 7118725657421779862570417441148899836988157040474420587954644882422359812305083320207760607301030618990121264991662930465368162938804970445316031374810601863941737119002061, 19133650097047806921831468033694185341495834611542860645068204000991399642955599839202180762787649586763394655581313103835199419723988201443636247350106346181415589623528],
  [6359275678433312401042676108233054219188763546795449965855531790159392661518157604002661987307105069251679103199933078779349023014470905444659559969347849402285704913628364881009564, 1515912761371011479533327713951921836144032964454392484245025190611406699604253173859273574834418318175268549153378424183876759910682784933774276806210250701916598324180283069720200, 205853786085435837338921855021048831361588063013415021940398771956152697409102454658813864725972176064681474456575563255094124928508039927094614691441626418024538540588724340512698, 19348766417556848473329537164283132961974453470975368031925940371767558739015151070188238397440188737510244225523640958831506776553310196158336596881714171567484966861249560091877, 1211890265917086653899395596720046235719656781502238145320669146422075837576969201307143252603933274719161712587668120056172386990768997615981683742850787275285829879297461332746, 44443971574430292706514341605820936377447962554014135367822199173173775302566283793931145303090293442614018752917926819703379934668899044306497378169522210136327043904398854572, 819596405272739736478572419244347380165697711744406523702500096711144462935419349863856986105045468581766025683557047604740150248128808556478948788439671374830482599171963393, 6338052359281133992304358038790103113668676373575120753363696780119388791715013344629557376792154127628431271868656179188066128872785783310391622871715604457361994161985783, 16599789224659512737683658519676910301060999537731155885110437745399900712477379120638578612320195656791446427944363126544142007696032633792573757012106636040211734655587],
  [6208643652581224775914111940540556802504214574550863433418286740135136879414873079325983795427134750864177028087805087916321261398586304023715876950716893301417514021015630185894282, 1460015237219788206800002351023587708673874996727641460072665029910256810089166809226420116383424964003997654713055528357962197906388141947819351609098088360691610854416313306221247, 196405634334682188017845949574644650689364407169721755613515456286917023552836795892819547626889608868223463818477725138774160026443029387519408348982797420060736497558916455239524, 18321560385299102805931997621375852734482001002911506828620808490281264469055596389687543374590129069853467658443405830762795734231991516881672814628079416490665918623580428599116, 1136125389066018521820502336044414474382844512083197653456714949336866533617706380350939113782177348177612154631237205452814688435426123716474419308227377564415615610170713293123, 41126769192715587227906753549863312813969210353775212813484986627537082133005709524693353445096270897335767591651731219212132324213596714130602368305081681256451835203063951223, 745969661296538065047872149754425943657098432634060574725132184801860571895081707061150475182040518022178692379989215738225776353117178431322241612625714059305364635067741202, 5649898036890238086423130707962086333334595137872549863825249954033317847848266579434537102634841510852122954245191981906362978292988932784086958860275000822932302740996444, 14423141240300952418685819838859253459418666974268416613444541342956642618772649009253435016139825663676473941810459351989130278604257724577123872191114888977662449530857],
  [6062051670854104903222354069165107519369053151032824138245206826773394185621589735625833322659961570803334682415604494754851630968612490992792366216086932234695722099589041304853209, 1406581703958306332412354953365777126837675249437324481087343954080647311503215012367012461432875900783398054133495327625013335086187941941742778674910345042329931803724329548857474, 187492062256072891946500495458420101589475070269708628981638689184099134762402977422559300149117574988717557713409894386118454570076385340927112584967960283866742810411498458562198, 17359561659614662622105104022626304296442755660776706829193903723426396669046422333980785995655359071167153607410749406292524529521724081757969224207799308207049013781784513804291, 1065845911109838695773610686732355204899530683186796400944313433430636843821051902643659714377037855918914790864714975327996181413636401098840291377696022655299468287706874883332, 38088557557400182223669282738878184980379199624599924260085251309793138452905293993879324450063473942508086387757844202845796227356130955473428258350944973816261740808490833735, 679626276638555830020418288499698275404118904762484867718941739821314069106303667658102468470637911864324049793081394803437113682377779229709473260491712368608800498191844342, 5042469615420500488506540091425051143821108044366736124707189875376440073811659038169661996728692501542999749358058961736911766140194675379617405869712848810382537437175481, 12550283825506192022879474677032185342703468172551656218123218386600203705013766199422456562357852538317540335781281845207567222099148229854084717332754642107114971489336],
  [5919382337867243962831452295328184174180069090543185141677404780587422576168876013169176642185431628703970854460410870523059250935895538727345512983606532484551566525848334646648772, 1355489183287712634809807118477422317569408203516318254881384546879085698564582450437825268085840134209564067332507441863867723643886983776599551043461083592165256940365192940605236, 179077109848442558447166302602674244742603787663801569743811303946364106049258256061667587927463505455919527073418709252239777116151450461019655136898906833898306010579388041334928, 16457926725736569708347458025621131893026849751658177719995308026981445581801713238726133520227010260014707231433261143359304234902704037705750871050524525800069905385008340392547, 1000598664241883355579889132109330120248190547686795125212699181849473384859840208432652855662592147307398889438474310229930256733203157308841962810269969245249428529742306082489, 35303161535028685428168390617331215747239478773483108311277592488145978656208898740518945599083416003691159452696305248746630379588035811085550746869022338698120922579338260468, 619778264336952242880375981345710023563321705638197110602964511545128124720640376464359688085020173525345787117305930864014567154832384309774936966216493499861802060049108523, 4505583655676882059258756785520749756138568618557407768018517451148545253462952896742875767092363486882393917420939574699888987918952733463028950250501651287036403383867663, 10936242951968955134831442512899335381701190073562393973609949186136168817961634558378907941268629023774642778069216334768163878301315196404951248803529389826620258152690],
  [5780521858906953610199819043239116269458588641581532812624546860845978545280435756281458535725285642909788162673080476145759215144613575013273081577688537194016013820270304843256440, 1306621391096189561082376164811176357557275902460257212294326257242401278033349535477883490775862137767588021895668504670649887035349350566553536852164070155817334083245477182233269, 171127602353536818621248892055585960500525175305713306241661055966701865543673197102724266900527476330838352925999822487578712263814105829966082237868415465440488221340273535427953, 15612225218138318213161726366921634583919480384696939906600635297419410074939793437288392115951826769311618134275919896519061385013961958118566269030655304937752099868092513478317, 939972638505135981395260827694228015875754427767845221682937730878295943887221201906563768958999819578270627527739347195224511766634691046263491761874209849079964013128050965692, 32747120305706471564369448437290895598756230252752230867713455096526103276332894766615761854687297535820539193211621505940328262648942050704742398557461408025418492285022472057, 565730284242833094951272195388447054393327920759882183567059449447682031129164506110272700255184443989611257828171361787019949713161563454585503883841268276178877565478168708, 4030432076733658087727641510632628799423189617399867727800585444197115506204100485064265418377192881941616073654460494096377019845362227197958019212810149267081843047565872, 9543084362370746998564874746239895012636248175815607435930420557457269239833067666173121759918594654792182511224092439908683471731646038999113820608842610397295333165627],
  [5645359925203598601989571447014827020814790786510682627893314628938872042091306300874321438376629661217183548447362196581954115576966146301136497232374677038801480147907255205526620, 1259868349880249439384851911877565158215753643316439444909845682309265053552326323428510929718191121784446573975168673035064423803445851669615476086907430356946637997680160255958695, 163612908620866699445803370035244170108520705042426714848855040248259231764768412057156841558287873434634081046328010461570018510646900064333351400378299722704601539899291460117017, 14818400091869835695873541784619710847749327533951587790750960328314220107221928214353646089107688858068122684438246371055872363338139267228018499255959089203422094652494676914896, 883594616537263866578014847735937938585781593190599904872189056247607359154645562206440416832607327327224868665607835488511889555507593199189673156739747945544556858590733782246, 30399378848078293560418798858405001528998007050108046414712289000558502195215597902004559711127513244980558695624190507463481191486811075329453835513881937471503590756142947128, 516867874804039622534805922154619451718327723082370541016144016069462160185325550475132872693911836170868879382778901583760606219528040392861114514402062124640950553121643894, 3609384099429158529584606457342373284491937121935805094523813076391745194993385605172521486802453599714427483468043632172513714116682073523652822603190830328557289184143117, 8338751934495364598678104547198992637798374690410476478195359222219023224228326495036437758545876597946933003999557789141502346052871026696394921911638991276445693980619],
  [5513789602963777489490426049903408848494631879680850557978951900071721816629852124957887515017194809164990343091687579862588578856771915156773733219274364962912490605687134606389194, 1215126024637066248064382589132313238512074842126411505483384062679182817721828685020195696721056645041920903451594282001388312189256167280640986797731794077000325498716663949277544, 156504722416171830228279400196671230819946796093529710263943413394129323086736482014887939897547298269587297865932970309436238494806864068946476729485290643450530100294047901061974, 14072732074814867152067329447594020120823949906923912374114831520868769319254077330162818522605546383239966711001364499340032147868388244316082020496567838638943795895221065482025, 831125306319275143886407890017691368606966863181010420165593731575809579335327871334898695631334735159601482016435685524729012993858042686786866910934743427937520382065802924208, 28241017573189489573599333086563715559099391432171346158119256550992440192216022616899031035519316421379353918204052091483732153731522476560470892468976326971742874980636203642, 472647291103036404548238242640618423653379356540553717171823949073687421203706096408287423926077545624330861605693245413893159940202766034581976827134859274192680428126189466, 3235818483417596560346385441099987215992064023938682048919421688784379433036404351573521740477184243591823372856626929410047618124007333734378990641333876046891176209479618, 7296107552734310320549351277050966059144830450583178759554672838166770870492937388641984880855741253603279820992618903676274427478581421365844415972998006296079902510539],
  [5385707226035838226783959689287285257534905931768645160508127674947117992143080946844923757097105451104807335364371928832861130088328846399658246381560559544530712898384411098726778, 1172295980757989018558704377924826194706675906668852458824079450029422029951959471826156905258929348946578627313502723579416598676945896883509721899760003147615149791797703555832019, 149776864333737777348983095242230393750509452637537974195099496459766749049281123447089751497451670758310185560303695342544773106434342222297719944822568384306389984300497566439746, 13371807893748922794614237731668862996995474949842105010765779095437684338391952253982976805238044741833594807957559595512016093599101499607355264788697149396757728995600491266955, 782255909884539879475275815606785120363816658207450581002388477425340970176966084200192945971902750504895935906067173761439604276588809735312397991620644392080820920369410248392, 26255015009632479720403971853052145410038729730417857089345677141793987934892950533651567902539163516876144570339689367228454999034842011159833006885719028174113575095423138713, 432586714727123939883002576743083839260504799321556763737032287263987065138517504750399568305286646243881575396988426608960982904593166669088389939193038652437681542412799619, 2903981153731856647285971261538587392339164584742681269417447456110374357325216483554058799298327988684398164796420191342270839728219959144521222916181334708712480954059612, 6392135834954713443537047340776775932452384365383766549320788559601017797288984581366923227764513749389778308655207566851762859508053718293206046392219435091493344568731],
  [5261012292087196619087094707868519599996339236297907699594913857743072108910025716483113799563207138875467701414716990127804268299707427622000886272861561486372118718181521806003040, 1131285062547822999643874217154571091255211505381763969806026152631826425645498696754171520517741173319449156691128201806149517802867497675377952699178193958582556692601171888562587, 143405102225252209937154649144577446997910730647136806320965445088370343004879014332267669840892705967239191177421975710073925420526785033212329240391839635781795813815929791037706, 12712491832630141104960023230103334720634538112903244399363246865755431798284160980425935276647118028639790769658822287047802939431562156063500165120821492279515779705964955161591, 736705074320931319245071458824626984086364853119692855773395247092329996859638769148117527215209170640561726524363393448650492467474182269917004883421859412831564165965608035533, 24426039174074495536327261555045358293217025350680630851736846542981799254448694425916193585217101610286994911468868990804619395526890093631499420980304586015150304446644097650, 396258637466500248412370273229294818099155172354365047145336839584335684384496359961061434189898663346167288693281792848128690030460560112354548195236089285334412451392425650, 2608864150283431074442061978457584547831731646230909772031679240613115064366780192246870921833066576800388725463836002662260769968208323485141600452155113404174081605487106, 5607284036079547037815530142254768400887679026728300563811460714264933449120713157145050054886923375017877249760518121515944095827446099414614208135264243581804013652908],
  [5139607362176059001274373944984799640644341974037003143244965635534847362798165532075571852971417262426702889060959258343837144664663985639905117327628049670375849213772013237351640, 1092005091082715508731856530196998094755763194059508508712588219611393908663086065397360953040956583837719986920089938623195596988214798734320841441758594972098102400248904764117623, 137366988281845761317112675799928977880741495575644566078108738562918560214966095689765983089148064234897953934945701722899331106386785200255835562793222833298103820345742846193526, 12091900237942168734076174964329957780647854536428472816018502381772570076950437283084207708178911079752196935618288033742859961632363104593689883523710792484956656806470951287383, 694216178557755354642335101576022181832531594686323230879577791470895412996772450242161379939131572789849771237675236729199615947580839517213370597502238369008004449626956794036, 22740263880740261815216934365180001525071424523861994659133095945815689856364757418889692257673036416153147596322219991340592412087919140555451834726730622696609294228926621870, 363283251255577048327739324803997709459732127893503264988069661118175568737465415499759020531763916376705785627025376208185176005015312820708304807853575003493817549881951023, 2346102520789270939694961687257358305863854219976716986973804081705372658306566958669303841288496646657189401102328813803133949802208323173054008407243342037911340901782895, 4924913038430978372643563709778595171893746285549219114767628823994906710945756256431201674964333020765449034367364411492234504122609307359609733229891393501622060843352],
  [5021397963604141532218418109797952376924167824705247104693095181839005406910054059718168901433961541834192426151129895469502119426059810353845729792400189840879288161819979089386080, 1054372580201955375628283176084759204977482714275174090066320420751130598191814236849869067584894621122990444938029160962647425245015174984199624355704846781442701002042170245120266, 131641711104775129102408497404610301346325200557522211472589643732219971772252547261105403206965711896015619840372587584052685223172854079667181122366369424222507644715268356815636, 11507378634504283728796478188012521458982315674559835126533916001348487031121908838163673344843528791759832832662206522105253636490630480820516742783982205972855131429190756350050, 654554915560177619601423159082185243659936219033996876890813883417576260275414469762955928335724670762280229092427138860066416662926521637344102411428174406948051302925841517803, 21185206768986155376144837590496287561585415859096358199149946923954094246786025266191964146917383571981045716716589269984090555680731463703457568026129823960160835243224265787, 333322702238571965130925399633918065390009075133453578144841078993802268847351964681724171597549611684669146205162303415579023874784156844838147559671921729073635828169491627, 2111886342599516588922222235468625332389807218356382258028391166000133481783925165366125899534141906237761703745986283260471802940141908898826172176394232770905577470478680, 4330839829263833221845641105757299107819771349110682551283946756472108113738298722611493547783533253653262007719506622310640735666777760182952641699408368770593077015928],
  [4906292495940831981397809473432282155676315246849157742135439484311067271853534097299015903480345340472576127413951768053485241371548527118411976228720118594474426632388730899920515, 1018308469506072644620618160333054875918149367648367127001451199585371894717436765431538561632933807419104472501147478266237689850799141869285612732265259390500660356651206687462863, 126209961276796583983963060054475758035005058349561917432031883058404082035200035195136103659635763916260130454465492852359812807162884210977673891521382625893963951701124110451742, 10956481157125208055486880280902177690597390096220638302897042599904315298278994096714925039504360495767404612597495684533705479758226042521826805361816678680772050512580429717905, 617507134814942467006839705461603863199493597475646494468487496519125388978400806203721576419734908888251806715723247715630835521895931217505975088300940718644586003802651559665, 19749586274890590203479549855732744184622487574451130599356474539053176483749626363589305774263521744263967659064994424114874921239423476132068786182540907377520350219130338398, 306076088203923492458211850633972755595248495385836421448904014349375700486857885511977942279483953000657650156312778943205078850826393376620657436693542330607821218245398762, 1902885524553049078434126721582182197930980773899630384882915835578718201269030427318215512631620625315773202958735740177725155336716482200032206618565025818922064964481860, 3812955482767069103625626727389792836352455406583665413033324147682988221907969338464668000420445966210124951473723066598047127841173385919882243793805088892741991497264],
  [4794202140112960659763314404388114522232709438842943851619818052620258839216169526937404784800073318333515040870638387995948659165455569734989242305789224557981921357323841840956663, 983737873305667405173888377520518057195250139960078484048977346065924841241158735451959562388013425191626909620776997998779506491545637599984423504040322348959537580282930530832727, 121053809103225006865064958871239240563234046776148404409596635298059679888941850346487994179914616260780264768026337748889972895812333680436544599967821142352613364587447156855381, 10436952039776278619033491774773362839430251225211477598526775192589187921637180678662104291997553497069713595037936962211164772181717588548071986552791944159005795585875741185558, 582876914514395673485565333008597244427097654836085622043468934173874003652867809355011962829435906387454924275893612827663813110690947455942563077481045142515328409919579604367, 18423195153354880444086943398831353374736951794990957382359087695567711387619272580133270587373485952652714158084427672828695242437443732890314960927211461081700536170408714795, 281275096591395060345893077893296749333487268798225991500854329026321733503570362684211901574642602176939105507407636414984363911302239141420177468995976523660723314019380533, 1716185424623864078580045039347003315603973404529146511419356602876677296704416278223187598689563009849504707415957296288466881468268531614952260017721755439663883220166675, 3360905584111341729726328686173590702877788717688362779891664850185048816081143934963607626938957601840359311424106405195204675934085222909962382749272472355397799262845],
  [4685040770457939828342319929381969303387443330822424599472306623343614746964589171099148002826380222248841812814127495579659732559987794755257966750191394998653127884013981741392742, 950589844532737765250550225367863476173285613055818203344014915971095180142320458727592969832452567039499628482706931733174721610182829043743597728828771232460797681824954122101343, 116156593331246247984189942827439068109474383607657772658928274945959377370464131990805422005358683268352793256469987694933719522622044534479243973032101950281671217293023062133047, 9946708935417608228792383512547675992788121197526893556714612549236618338050451587301008053312341087680876425694879454694932302327365466999084404579765864310972844474553889061986, 550484836741912502738832584155358295903691036363035552975832432908777438659635230127304460518493576046177359676127987375875893757689215001512954930786811589712818217847588284819, 17196788481996314800154821127515471085457285590418535760393113985052173000074897094186933237354427986302322649649861058616801645160047772890914804962166919053801163483830720300, 258680195403757165435597725013411625388898380981691842243208815063992200983650963102324342925710232819326462317345135132765298482433903801978029451688367375200025585219940331, 1549231637522653376796658854113916793261934906349532636169239778808200197021030074737671672627860029103384753721403574860602400141747312989504958477717185539771878449381622, 2965822396576034456047805806922717001201604054657343185601688750221748338845399016470001621457570345163764598556723873860592742113874695526515865875521305815560785381413],
  [4578724869641499964329124682784686943136893951867679632652572596194394420076693152548519607217824141563041264127128392196217997641064666490572117863113880373685870889234805341542957, 918797152689229038426061256319079317557106631055576374291343482110497499802868656105899913275505938459994681441248297926864412997126825066493786573975593260261339672324346581259835, 111502819780248127664926587327257504899966023013066143202160288033839389170414264905967998305793088899881471245294790236225105960031195535783890262706591000384442797007502068681332, 9483827866921360004565266893517725600056194923282796442458531460362069342821531230604700060495681532382747662871775443500573931607641205086169536021610533625589041843820451576065, 520166442323840983438608626577041167710482629416788443381143481329356169041019302933978819320940671317916024537117505581738972702036636416266105111698252034985984101458409281620, 16061984355815478995808779663548223766614234696415807476553369512139027583750328746526321427518934701701942360517928039785479402345997179420124415285955777702517558924697880706, 238077302123079956575770528789627885625355175552530438511942583130851702491168736680852960475130775961119745219441052486909842740926877043858649544803813102729288867083308486, 1399782570545686430885426064642459431834625199819813446527821202838161553892815754277482169905878672516189497674714745536303027348325730533599468592198119126203052937097041, 2620099989979665565160557107477295423237195898581608411798612941441690521182373633052440883301045079930572858931684526699410735335557681740519916609984217794493783505919],
  [4475173446344600977652637007687723920725678642278746750670326992532008290432893875742063609757659041856919086616457139689957682169783849664988901878653313557724795133735608400122119, 888296074966380172622280456153610116224597579256284763763688312272353425853591183941017954078586521222986595010262976192800883564452343547163699509348483382411770448020450838838467, 107078068926519620626442239598304511203667510331328493007552027451583115191889138152056109939621759313403582799450320093221669620226181780264477289636162793389639961660235384842332, 9046529633286948213550716257172571330231743953272840388726005698631310077911619999643131173934494298878772780837600450881984261444013864537959801693326110766052310080168682345075, 491770844919345767454732688912396211274729969028012523549720921950182780538563209607049998031173590282556259257128857941088454179250114591683057991903633603044898296706665180841, 15011175719492643488296376170818552380974288422183880063068552548980649735436926509260117281640882891691212452897661039736861701755971553598724093494104052072766657498249553621, 219274866528727417556561833104261968360270529447476989251766248597770649841981828123667733805890589323095505947708088079814119789935168361399015476883541580598991227293260377, 1265868645518751710452665229448321888288642580106653166207292148759795880321147261890307023365699733398096428364469914603475817326005531679343704286815273025819814587430052, 2317205107318042495130527995014890640730869523668558722577057368873540588077840261619840616058726031985779667578561959941503431980230139895245613255814121805532208381539],
  [4374307955627331002341153950045180814019073153400133756975871031983049432503723484885354126365662737194100995776774344439677524583964432953176334656530226141093163849580222017715779, 859026199723470730437784999828511081126070704834070261143417497012256377918278603870178473798899483265804445260418330717697927596803879297523143448493742814088470911033455693057423, 102868911584192127343078597599999665596672044992241710966246444728406802159757130801554014558378858575186951584330530163995366416512397832528718890704219938023818652737720554540904, 8633167516032630761191893791826732099667359979884988028052557732264157566932270941921346297953661301915015703717160891284564318131207335774770350758149800258834726811148648786092, 465159486436192532895805564995456511481642621020850186027385383532376113556648824208222140314366602122607391073385649603215363926189746828785793149812971385354837172731848608115, 14037451988287675346553036358978256355868405360265493784668276060945053300893358393879707325371700289320559086909436799665337933230347866516775258757013590801789482194523260404, 202101312461486249866756869506974112768509160399993765141572463434318476264182702139688510191016404730532497239097019502943379683989685597919844888224167210762671816654415211, 1145757147555179443254559112106205622476352801490388577993454423327592508087677397284417456818884248049565771618169281811294994570971752892675039747052616095566157155264183, 2051517816502604390671778275488404644168573562131740855290182868182853632176792492629738845860374175980866875816170161192468471169249372617078395779417060863502913231909],
  [4276052221880728741782303343561023053821336240322329272545899661202062154097893936595090821476594976700663768396433542401555940686568130959117758529424375864840107969721393745238279, 830930241566025534525834637386667088907194386071685485465457824990347191037487270493152706282171549050340022652566030897490517163011802209192178380340078777671431943321996861181388, 98862831912131571815566272105249144918310317250538088233491597881119993941324274067642310314061086877935539646505799532468730748016492913649084066990507329510549042213934928626709, 8242216148700709372178762010644273245614354380804086287936359790425503050187622915540477707709131049655334961354608429534935124170948175289511610670041035968162057167783614177591, 440205018043447007071212732369337596134342322935006612560587507643291827030855845270536292050738632847078095429988035398046062452632689597652614846654862459041655351833877560752, 13134529283977707388816328081027826740753781902871631421495513475974066636238996645569334788437650923065270954999953277777095782979610355354662555339622608601645333507515702576, 186402791342100773489580966855505688515206601177750945584834586530950804164805316144802898524467859734554325178080793399236896991640376820946821507938002306431381596315622824, 1037921893961408016857941122911724866711919522929574977651786122689856724997725967107115061163680718263864337955131593628100982583876822519739352716958882237073109793249327, 1818197031071925324016291781818339286607923808935941826872654208394564100932063046150768823621890514415748048814300757530980589520506659479948383574885450498910103620303],
  [4180332364280481389985825012430301207316962900935862008175129245332879220254691564929881114305364468858785779373736658871923702147420743020888609405721375280387940207458503687337384, 803953867311650620450528792823115588264825467026456235906602787292957539355861956993108785278825387587859935254268428354835698968839040242089126386745312946158497764886718796217972, 95048157054844760786721842554024317603711680720253276282762204996486704498564298287943099798001838109103251542141374919342247465737383225290864583745500835286413055950976325219318, 7872261428190763972837873231704246817559155510761826069270743422708433323551979908234771204201283225347181866097063756611829706029831418782237639640261972394185618565299877726030, 416790292948637049331890980767813836223693438851883157278030823513179903465531890743565158428121758052135184564696127471407852723409968277907787516688952866551169672750106096569, 12296688263346048664456621101668270707760744315424165210097155988841430363893553237550889907374212218757564272196964580864702587970185801567993877224198913596848663311636720951, 172041206853812100565778214200125149857139520030023240102590000792485332272033943286428127100983275492633541752698327276628675269927112224415843408225118972259864452025347312, 941017024230746832802042934371672422934780681330540824548360745756833507798301376580285644616767581224069092561333597864301439117815467167638633964502506741669343463335097, 1613066832242701246625542719116513134191398053782455166589641308785768619556220872613986285265030359046266167271728988941885058469790686944043163943963841270833259750109],
  [4087076724659362611366490398459885837338468096229300838513492882774942312365409056597624916260347798363619569622575903068589115761104681388776108432404707430612994631375896841913718, 778045532176673760143125918153872970528920087885953157834589449490424203777165811014252326210541484239702423951171569709995237631237684921895182740477600644560174332135099807963459, 91413992795405849432919473110412838039366442485302751327306351506125471873712026806690547678834778286367453537825878182429892414266524548101760232615334087724485408197423006438420, 7521991360445470761407268347332304767308409854936490628474524748561718518571747583821899081292346754139827981237900396805406633172906612174752055120547742478370152635488919883151, 394807458757344714340601616608067833000322475714893462510442754769847735778673196712740693212407165119025988422367150841152045806936860268591045190527989366523275116721670412701, 11518718647037196751359998755198924358404353591800754540654330048033519315952158989451754744405999911173519693646265341885620919674435342381086926817680570271247925386733163293, 158892475821149013426205355598817362456636567148631588207207878916300874813128582617044262978236417830347756481902928954555319913630908504152599309604643160579349800717579128, 853854318962793752249306321504618207987319336048937715714862293327719963719990621997178750895870777516495418691348424881541365345718839972431042328374207834807181072574912, 1432520220351164577122155709189802448414582436386288322129660537034689606327599245020056980764592338961368193927223687719642455238333638985769071353570585661213140357845],
  [3996215797718087537726935256189974597517137179512813686169919253739964972778772826708850500024149987159708054447700621421366013526044608317543703171361218831013096746291988535567871, 753156325558851134234204535028908315227279191756266772578614821909703849398324008284860956025066600370663915758793977227769207453385930878675420877364810287803993893640346231146673, 87950164660882230214751424008027972689310084047719604635192856886881731272512217028178722472070678303390955307356243026526444887062483081892474982704154179065704611968063797515811, 7190187745120362137113874781134284435083725749164776246006219432887168301700222249401787332438189762015739345398978584406035958312841567720733269561304692581422612336116424267890, 374157138671651207667442342213060166466605655229513189116366955688569749114994156726089905255079776562512195187279191412723696283733561898160168330544469700807584513936769586286, 10795869669155168621600598887618503628640626758084776902810282964089505876367073754590263223927907365944326774624396209113079080412751780141888179933315394867240781399065722242, 146844995114421435137533997568057966748446812745445851093752648555508080490298725975525689567986906009421200655792364871114645947785158603084661444045251002857254204620701275, 775383545256978398963191835069882242835009618781439133807865436944028309716135425131941984356835132337096197406842527543403193357248982932535288711746327669313884218115833, 1273437495270369302898298507150512173500544823181058892872410148638270203968053369080702011374785633230825531605372337677395126217792998658879133593425643864644251572406],
  [3907682163496977705197588670169910549352776838679172943863072354973903486190374535767017209222498039805829707671904658791461552494232016038324993498746472705364661047119030411310659, 729239825830770581367584679048530797098086280652289868315558299547975697596184899705281982461948803391558033204854284204179676957390261952385834609135874723978162168515252531288343, 84647163976577464602806948507105876781841641644640226705419485877228192101980255009977228855863927904680178453203372856172684694692770820291199446413892780484864897875012038885197, 6875718614498351065671266902517145535161292395643854079004061740461443320178201824323031470182918425575820371849515938960500091047129534566720550872911006447866582709144518370748, 354747692039486612340745840426995989152601575004743315973762936168276766429298464222892234215270188795560186430993104342138675030967935922778927887504177592723177533496668552319, 10123805765373857537419201488015026542090241077894491331711802819338509757582871707796531696302420474937894655967351385873162928145831803940286143305749097752090925812915778286, 135798288509101984057895087358254737136848474710774293662649082710803475845115927908770215783530140536409252177499583430672389709160654932719036652744319437579962716369221029, 704675401551093943067843610141940584893105465206140892473009443373954564593502931582744246390917677354144892147409662373935054256116904016170607388927097271306791285286230, 1133116935845049553154531630488569059330908016429492271624284427409594076129223516473240813985342705114962478172643260006789845256435468215447615130966982795706806038539],
  [3821410422033451656315205446055781628129521315510488253337824533971489730481256293148503773756186719138937575410695690384739892294219749166355041893621887938237638669548703468857000, 706251963595410247167884608201218657636821282609639013148237617700826120285807049216392805459847733483933525731999211910325448210077803811341832362280818963283386082256180171999668, 81496098415349301825030488072444852151167827216135176520852594779879353746711012359546551236182926933911464186372768448835290549523444626628010487300998411723761721838044237897068, 6577531351255887264461482871121070306160810497971745335598915900728994860068722524920190712755604494103127967611200864932923968714232422596876795512246580860746826594312339743538, 336494545864608892022208626557010165965351378637461756484792281743831412106764313285345348179949544357723742219645536771716061662768814281433776583822731740089871065347964502366, 9498566901723132600726501291075670940101047983364519514275414698452110970064121109524189904540107857032349735385694923609146459784237877290031770218340450267522666514357712744, 125661810938637231122342671983826905190253002367319279760217875945556470558664537390916867448984002797062078294142792756486305924353177247761604440253180276374400231473298800, 640906698395755234733023941268585267442197922413229873604865037064406448855417840421757249832619349620343891977476255509574426598212156333185391361475569754733911127480536, 1009215836378974265066604955454158687691065278223679419151904695669803335579810901832788369511467556989365703279486457185697755705957705252509259116456338703450872099783],
  [3737337130132889806196528885416228502954215486119233399276603453073304915649638982973484334152072336064548863721162411770986679530382696101484631358200031981140988728565346183785104, 684150892889766443317950560662667552798647327670301348339821486771371399294888193031736189703000570448737980509707408593977875828585332207653204320810555235459725084953978132698220, 78488646632955680114484734060872038059442979144239353681035649905454055540585566976645324511056685315340997388726646172877354879454484453816505757643184759996945576809899514684777, 6294646417916947793363969469914128089725194230455265879609296902416481928750414958781387659412710946454811035595487394977685621663185560744101827566513010886510500086429270869167, 319319589847920692031411984005915219843132608418737985949891254747420230612224732631281282714725258052578406487031831362674555460522768414638514363166160647202163785400378081951, 8916533019457246112723633187963854127228941481533008390117352776461308628325300086284138117876658382045517398506663053738051646033837610437328924228567429887790758733855572456, 116353890587989519101577415666165652755857195543938031910688073200537088546537541245259833872449043891182931394335083172894190888939770593132056499164426628942679052809501716, 583347465242930148382670210963145655132759225578142341198614925447805223405849490117663664020357900626307500479093739050655494157509156926845243461002547550545766872245442, 899700278791670526035533632194332224242832291962237335502963403355853090078555104705573652021263381944841787611867681976941010679875899855180632346961877480916831206945],
  [3655400740182868236613743891851922905586708678059024588368822065049597309403481198646932830939359480295888275711468278916968524182217777501300639292773846930307002050372235313608788, 662896869854702004290166644443207862526444620123079669192812606213458320050023957009694126891037604880550939299651494468570518355978436191578327884834918711673965157072804486174571, 75617016620408297594963143000216799999329885405163873660310769659027395700195191689184109481249034052709159404672173512763445859523926602588999369378944571856124396278135458869703, 6026151638087246109545284238729670047758443869814314461014564552185292979081851984531232432475415174553776687494907201742743322379129206392744137350946940190582229549057750783333, 303150628373346008622245816382818659049831154383565946217254904083418961074205548718578740061695780321096314150581482179478817950724161584511517104846796116627884720237331691594, 8374392135069927525699988801021806679931075556196558449422760585238633511422473972901860898477285168313268404044676986382241137427255649757701125821778037848950978332580502645, 107800791858781602750157668705043229878721671010601064753359229067253667950059661646204121001578971585204678762356748194150108023130280440821310814837534601761543284389884680, 531349718609621593266758057515886157898630275669706334913809488904340920638963294543727024054441137291430312680031940572274732839534135749064090148940242902338220129982493, 802802284428201425803532335421336450321107987061073789264198438238057410039936482411622004511678540102510398903105005195889001153802944028821310962680180785917018960948],
  [3575541540943118348149931912041193287351752807432223804411827135916557165225621864525254286625549859849486407754308486574523812810279545959842179785595495512128428125793059165321733, 642452138419331893230201862208403416948829111996156376919853611388449276570309450402289477933611890388058702048775163484281932361545967268479133918626023308166857700757371900047541, 72873907440183257533982181904155366582793823304783468923334722061283573312274635588697986147354014682367455325620056426722474755830534234275597307523984891674386349048522105491091, 5771196975967892800546490474642622905370858543491697862542838398973812369855756941482812749669571759139721757639458279328044522605013367781942127722305335572935336203639178763506, 287920883591164064239414420761229939501457155885741018514220976323350293805687122194108269028148865157163917384935411208167385969951678228594579394887097087119078416688762158396, 7869111689927214089324489214413716769248225778042993996402749626399353406803070280709551818942378280511485137801722779209538506414907081323721965285153359446178529542008992184, 99935884458751297194981722706923895203201920527731467234203768305272365316565951593061082796666559501752982800224825189495855229714879604954666749228535812945167653284698811, 484337665305722325980950612872931983240825699529882996036720425209783884229146555382536831150144109558922692231756529448383016360926690238747421294028927449573416151696558, 716983209560009753136866875360019921147725296020213441480482537815849582175391081732007174303889814676641672528122754817660664845113843789299812843598129947130084739646],
  [3497701600245850673532853718785492933248480166469791278795225769016691285201491605797460111204180019771364525757501104907491315886062393714134600692178691622612745787192631183086957, 622780822576492060740514553735892886840888021824304585193931063702366445358190429228338989759604421350376531526199373198926915793545438523773616828015691768010422724922309777348930, 70252474045304582598222811592236630565876417354108218806386245763516110586914290566207172136820885264860294916982350743737501758499945261875159185443647500989717739079364714588148, 5528989766312230286008999629092605194338071382991536248033181416234157691680828441373184620635171570648128234306502320051577551867850249413140561559804032527019816868816533763148, 273568544401970124490824606265476953774137475554011052470836598002677956976207428273625481574202270491000935427958971340182505421610399760361663213039706523689990040972473862311, 7397912792281886060071471573644279911754993791018408128228590454806432016258195506316955135164689096868308669920990312498845277212954476290020824292709684227310977373824662252, 92698905781805627242880265767917494576101784423364492457266344100761142004538882980607178769198586143299566350415456061946678945791696112848120512344427304882499204719883225, 441799146908006690557152788538510227441177205745787995649578586574216669722943072113865856024313756483948899332725709437249186079254526188870923155944494692773652378360681, 640902431413354485787670404579839341856600754186582034062247573948513847181914937668142250691670157071634262727499320465537208805698246086998150677468705229253692460566],
  [3421824709543284438043784101745014017209264479615499515872243812160477657525481411219929613024091517159076819458790073265214970651711223722256799035128959396624549081007914257426952, 603848824852257360588318611696689027067207394563680553426542697585445741314807181214828329379422449405828552505858557171220289039676465452039454124935473631184087248594946523794731, 67746294909180808280711339177887648420301268607401092662736960571094922512950911404378530576270324791696313641715154930720464216193745701167424975636466250485229489062112956755497, 5298790352004254676570821287550513029705352670879194577512548653540373615289254247014570145281172549924772336560789242801776114345607962480110204670118843500658204149700061597344, 260036356716868491709879916561694728326790246846337201995426650745037602301802688352110437858915683540733610027835951255832629152064574745130174517730699500590887502857367514686, 6958247036583602393648758115133720075186529546035636299028178161679718677002182407659224565382633227421617642753139115882818823855137954257768435124773948275292685548799739865, 86035305395453415675831373403598018972130781556843287181714235237926351923701528192568186349404956696316431713521590961393996291053387369232053968543998973062266649319611281, 403278159251506275055995094862164858135659982915249305526368076049008575795024737523506868441199536268233210006530857408647617651019584415599873722872189537515632655707408, 573390523672333778041804049818580071138400748484445118386353013373421880245073918306432046553029850128712718143215068125526037314475460511464581697663719008427200447701],
  [3347856330241352350796534069974831278095129908290742516469027594141370601695062435669480647438893389661159693155523131023850569325723403812975405285661436839600219306460517300624477, 585623730597203002511619363979563759527730660628341427902799769595859054090956903939080568120032983545663649909358180912461132097811827439448962640867010845592354924608793808646702, 65349342219993787272316806502446184002760819161422586517897744351408815896578442671513338053071171449448401232238384942680149254551477323453845283975978249306646263689235575792199, 5079908090882147444006188980958967785837801686763115752448221394668591434014889785929619178432386618497685317545353439983803592115176464550035908737021406360004114105764967000184, 247271250874073856604115623594798285504198674410260507321669421269626615389925646847953060670734175596989845921601043347310669459457639748431237318645355716569873671773686547200, 6547775621837286654558283223933461067034380932671271387042593632173557253891460098925803130357405429422798677320666513545606468926197835952935042964137421728817767017485746512, 79895661877987303574330322060078725266955822282012529096804454403471308356296365726703802832984740297940896277886288468193926005121164810906031426214572345452363027025355355, 368368304171001964836421050226435002719762112774976662392128679317495697009528634467132803784387264513337056870414749442112257266972866651784648050905606884889124482349791, 513426247190259277108983176718644578945814998706717476422489463176743690989132672930781620707701129488634887946669919917434550975829875990869578891297461871506564952422],
  [3275743541760605234255820261737610488216821926842920761598814740843640347396727378456065019581821384347220389916128769529078340008382795989424154379218899739022172343699675670909279, 568074717750252038501180655759021400063495821408787125597614945736547414657856761271571130066445310197697267304575632374540234517403453731901236342173220549453162744256042914301869, 63055954416728567816781441936677561580171385541410927540297678448727341952073938197539243535023559826183185314986906191961234760024562020818064770742274685911475131494907237423557, 4871697697375591016190048069847389168141688410183796083132644895762820218107255498155074835604302011842310938629402155846480919350171241979922526847836285873379925667997275044374, 235224002537415143219591830900111777292439191326539295594181307983900312682067828460227476702836087456534623614196765346311854478453412859014360165294399046482616393086587598080, 6164350523000791868761420735688718654916370082803542047203589879167266883587515165987905992906922649189047913462145296208377232070936463201326069093165786832811719274547810266, 74235163480839301637205498854468923027045936532681614612284613028169175719872251617805145518446371902472741519422662965466515732135278827552340782066492774224832858954459819, 336707050706521123553465795561463124850530014561761916875936126716239961613773244653037384087817985771488202209185871355183589778486431677645791322735899661355419129599130, 460116787495960209573227443052724915349157064837863326653055413556173258317266798474806978455267582550967000296129045318623678467322553815469602417818679499109014462554],
  [3205434991267325967882093963532360444928144951537194162153181158510071596175910817622162108291443603597037231036946013059302788644863583231229044686456998289432883875640938885727734, 551172471747621865243289435414951239529400453799630830620036179918726489966687012338125743509797325173816151579393775678867578444589829056797565544685916633232752648535018105256430, 60860810864874637670504735556522444915496856959144870603933030825367331919499306660498482348137231101601132222353104407519231747417919354396615899734719758079323033972093835697500, 4673555888031254579906561697008275104921301147515482535809155622425057538732260783075749531462990066290412872115468588255182502561752645990063130469817045864854597340765272598740, 223848923795748621971026438911926471684271333820299351470750738143448883746094767482852520679919742109302589261437600124594235837911868295679811296264157097609098454714446048999, 5805997497662152794858440296034798134992417458915922485033520094900412185757573063778810738634654358300671855854151385138435376011726203204036354166698394973642442228525002260, 69013145159505802236884745139528696121208237246234828999889231693091183685366053299196667699930219546431846817440305838865647158944077942904438033074218308691163860330796671, 307970700028803515432303874014346522099489891424693297723548582592613667855922359054656790246472017801154978332134160728517835100380799238562680170672802240990968727183675, 412680759199305275272111526112565344127899270914510139369984775342123214913088622769241864390191732296071851797961781852499867583888713113020877496062483335355700844993],
  [3136880845019779266433089704909893827321945954654679145926071631695006987966692131272184490850386431505609880150810362742452924566037067912585053497101889890859435878313773147381133, 534889105269671971202840849781397787255441020419795940232076835232176515922862043213155837106394577559508529835901658051436383329110095593145014191182779789862008186298089069310527, 58758908488671526562543825580477184072271644058338495307832913281696881145174634309066425679598000775434790824420801152362354219569662755789789706348342992858204172121173424342036, 4484918303119790333822515744863595409910665051188034201454460626877917908679109889044412258104954599400622632312865168365257923665943050445726968546368142245853821651930450569627, 213103581530444998875297564318675250877897830942735064817446202979272810118177313850409024916690928098015246502396428941447796767836354063105901213565533261196144092590560983214, 5470900735021697552963855599746629078094965395197131219355644846055978363265096179201855070452761644997101941766756154192541700681621979830179263616007497050232293521483486211, 64192675442664496096922293987048367311711631277779640807325696677702498607715281881758640055112185002323265635545552570709868623771785920107517395670001998318784532169902226, 281869962896906127022537649067265530010114468590020822676550429847614817749131251507225861220819389937371300610794693389475951656048137695598223287781196088968867783119830, 370433571538653814103401916072691404925272446377533740796612159075836196825730095794908390580221929457044849981424084915905092328143152781432733526974805922627296654418],
  [3070032741276375380420770080324645363415363547654935020710640163871722255389612146433327277122370734599391295808509757188297544189782601688612850077809169319961485235549436285833113, 519198082537453070732936186914553229425375678845909924781123725301377508983676249750757423257655151734914088534922305241560771644562665999708461303542512859148239338537520098220913, 56745540193737611706387863488313452490132984631383516078694197785373350707103880870676496848003293059145657580776087018711272986737376103458521614549901701393696143511083269533163, 4305256679295799931069219461359158857768015877033411020228554682543502749035129695835996656277630362809334983829149472530720495197762785336886251951178179232657013406207095971873, 202948540426513510397172468995266884497145554466381046679012787274114746639186522710765955152264722965862496351084494821252066727128874539459991479199504318488264119268414288160, 5157388975976675367555511078501183912411266589001899929363906443076108684739646416504080979526775184035205353760416761555883021453661286803323915542692898034625183587706474051, 59740187413450487605616509800416759267321855782923945999214545947396079322413128756236525441069425239076447486360161678490923568363724655294780235411708798715293382197441963, 258146070910576433626993562793192893557819741467690956413800294522266829080067241955233289939732647441474226823248900607336270153483854007912150137473908389828931134598708, 332774811504083154025558610796145331282524860144413315379545405616498699998668294639956599458978085812680619828482358666223073937995538012461588360742212119429125748150],
  [3004843744714314159730481015265915594514234350752340549411446162316459120300572039396064774431710535286838730397326723924454126769340114953059120195067235957483558118120250395678955, 504074147888548306114922231396640556316008929899381594980630652401081643478831392718265601011993745276952043739653507207783482565216806214770662814144944057749946570675043623937410, 54816274929207338125374821897525573713337787959907068129966081229628116947861008914975511441818366039912608152587074744554266862438874233288653970940217301353534749452300260798917, 4134076250759604869429401602766465960046368710330619064487423928797035543025904275170023400619020189544983403851000013080091171292516092928167916757762160256194015043164674670289, 193347128276424669506214171815098146414905139647668424301188212251062003907903505503961997285967230392067108965623449456468452964179510507425256439817876983583236751356694343429, 4863922952255212967906322288208064271614485008489662061910388105457396458265958971490871544835570806495668638266651091126481014457367011670798210608260143974726563443093930322, 55625148776255731857730623914534248509036141880808033325059250738076878617669412462700542317164179624460397826927617128459092481193783640998754566870523865522336531698770152, 236567353484066694055102881747655843688619144431021753939101737190911513336298281648387028913495756006508241396550237819637854150394047477530240159205295228646842694120992, 299177353218584079652968589613664108443124989485494801252776981533899856153792507048683410949110126915566673221701429072321150875087245466642089218140508096342889304758],
  [2941268302309003246575040740033520250557160123697060093324042688347388027881423105095497414347480756944691939847256152915428605982151638548220735539735343280998039681231070825064695, 489493258378458765449558979691389249694392446438913499809980369853041909048679861495664575327124492875467850295123701408740225937057727387888220940108249760910666195062610697316265, 52966939252284608966709307004803482389909212805722058777256668963787269255008495476309374706587410174734303338965166007342307066075973133086596703709952949699399391309136643449240, 3970913358581326470791940883834029443737396651119333142192172460741427425361955756489467203898130117943267172837948365458705603407638008635554910196510541394903154086614009952864, 184265221468519388782853766134402114327562346755825197701126876774886195688389031931228264583942455320411423985498259337916471239263775303813317564450967557534273253456495950752, 4589084009408393650535913698738602515844748824142957242492706152242458001304584117346893501152591677821568846645401748194525650964041762016433197662306738591324078533714509628, 51819766591321991138007137494967372888793541848619885212368581174854916161230495148259077322069325738301159651959407654861256839904234122279306149681596313981818017487220173, 216926221614374316891115435808033919355749565858198735145091729461292898657095319919383575889740487090995607068992284511358007606833190268876072407094553485369492081880376, 269177946219939104203938190866466778223913440500686396281436232768073826275695840918637084344896662242572254181793049102961866756008044946986548969219352606659205453137],
  [2879262200626212569588487544166184568163618300224813157774212654960541823630194012537954130750493384038105024992757159359373711378270435614388154328948060709249481275045315407996147, 475432520169391383503095328225429508617636591365690197580179276897285529234554489495879033862118361581198535984245180807619573871584075907066151372752269173794468300144831343286723, 51193600270555253295715899730699102862037053082964677796900954728950195071461870477604039168871819744110527129767579852769987772170133515772353747137133689581863121574879010255841, 3815333249824424587650260315560923492480090060484898065104213115236891452938923511228471163176204214638599588243445266548644102175268255614887433907117505235240208989732961465779, 175671048767727549251967314297566185844453040940378421356117089491352617480450233051746888918437538651941444253778393751818056637317781063449301258049409866904829768501138970568, 4331563793334518876956447660107632092354508133808589220638991690886709659229178500443378056197156722811738049963363439160472627520995014051498252334241017889088655303025185717, 48298722790173827788923255806714723394077754322773239485394702352994830909713913133341039568963662868177675105266067528194769591973553040676772665154378272210156468139671415, 199036507371897965035630632069579526667354260059152053453594719574246357507248070119148776383719145002631571371989132048086059945931796880484523972632345304698618396880527, 242369072327376061770349686145958909764295221785405427279929754791974716122560479233984439300775999593863124288339267943303625720243645722931603330047084130598380883511],
  [2818782524480538832148682577799373476130689919467778552063176288652804384724632030894283087715910656935825012399006600118622626474349375841640247857754269655366556173818659483168212, 461870128482925754534018516760203581861210110248487924325429550360452293569422648125038585723296466695896258606563559284640749691830823814429664812295419209130605195760598049329604, 49492549848628630088589622166248019193666390732070043522282638122656627069122094487446536508785375393887345956891782017030958681347886724471748798159298973087667322964387888904719, 3666928049874343493974968313320889972158826768658224053778240979589640561472891814138785069283690895188115579659750814036298030720835160715208549480046587629319185255995459289581, 167535011688374739919263389703918818899631911870609348041408627965523371930207350876382539566515349424433012103199751691567661145467958049690973850384571309774844894930305584710, 4090154893129554299400695736250807398954315999622523750027984230466313138211051116053324513277332170134706279315592088328094970225874449222496646174752879794690973746498276781, 45038937048168475461709337590436482135406184084575556187718188288954119517847305957228002186649058577730241320369094776948342952147648281463233857286242547466531669320433565, 182731114796292831615326904123637121231407106731564542189680428485173833523980373634463663289298904158212841987128613559991538993437441905982834605150034038548669054978008, 218391892033094877747315522188317734533946227698996800626286549841273341441557462825147993600291109583277497823955817814491228751556900178092854218182764673071413634704],
  [2759787616915310289111764746329992845114686163298518773912434762639214576730114931968785581752552553952936843289503769257291311454172205416957781880267294566782913506949448649780886, 448785310906731371856964594119514293774364244366750057104297982504887171505422490441190114252822742414498490955736551718272809705042284174289732378818400010851744143930631794322106, 47860289975821853664330044742586659552194458636673089211285201015709585691027431579373766208714326102753421084319517660850473401291483172914384173416156973745161098083706330111674, 3525314892961861692247627464207829461507513905616230614846929739940833686439611962402833540792131309521802888897582997492538152503157123624687569196180487827195913567895817326407, 159829519929936001502446572274127208926957712243429514425585384339465367080908392970969316836758511803502824059597658267219312570182938750915521003629141866850507242022826358561, 3863742344650250519395146628137893943685124497308083892573667061068863813755118060754155200356168454563685823243303481007790807210468823792022393555852135606656905246756935231, 42019353995198485669063385717276016766345642310219245063616953642276250489836789236032333171165756243446039413600175113994550730157205551119332925072454625680454961237996368, 167859943696414005534723658334361813287357079559548051130187664049948244684039761466507748339031266921657880417124538440888967482604357431816767507241935275621894036029133, 196930127770096654687075029238143677338295412988833295145592524783695630363343810785129954936175488493449086298998563865033713228026041028444206600431904735454780653086],
  [2702237040460565682672404767336965107851323240762851891036951929608317644457070709895032560640788442777578232299496589748856445661432743495798371631363094333774753184724739541268876, 436158273858337991676214547460079794439144792449223631184746985093110026341252981396409847679795285913186116690105371100977357767507650963523922437567404532981701902464144284976177, 46293519200770694088666310597932401641973502668426654223262056393606504839153539461686620803594094659687633597372788562736652080097114310128866923214278836135379438055852652889756, 3390134197290870618883074569421867818721192129104728823844704344422347701190079925764872439104743982740014585448207061249931658521911996161854419012514420117755331191295281359971, 152528840499151885320669880163914365550060980965269914161270218216532795471785109413591208323792283568186690662790339705085204042585156524287228286422485700032334006565000879524, 3651295909430529826949060912061357638360509783745506855120347660460232224510537101322474987867845586812342950859252852584583569206068252473581067125634945541627265860441021064, 39220752099662347463462547023774137969782718520752734835926927828483735733035863089310842686053411817183052355338380978715365114940361294117847974804776431136902673404904805, 154288052867378410720003798557634322602987747913502067051690951623365145170388805898667080420570622205501860190293647541987742538748335015636310009201271720555401167531306, 177704753756139903921206534347563024011625203158698556491673691382782176404928537203349499949876319104260289505223490788259648716465755231164860116384626928140785377306],
  [2646091539627193589542489232704661943178139591002657867492800787513968015860010577189150791867419668058579507240447883262814275650370760888880401970993307382059109736884118584562279, 423970152020984945192104513509512579161075157533068617751288234918817998818328951728725079732946556839469470246743002411924510905155801872221590233655692277341533265258922354579444, 44789120047147878077271372519693210866912097625116452249703055172435397471388358836853064523709757230546316333063496476710074588920876989880732830505246388641886671168022708724340, 3261048072454854073298129413473151712488733984470992919314845012104709159314288602957538712176073519474972689941721489005117482190411548862812124277365709784964322158743632995840, 145608959278101603466408572587554648660140930326674143313149078177118578069068827885995277889157754364967249296565449639839851052213757618623686907624479735140834418612756424164, 3451863052671724682920686337706574960388674593280799707784348970131370457658240903648041041698542050628230287430353679254878985455696875591667483373938376313182630415811462756, 36625571870916582198214483235067876050582913083370627700002896163769407814471263339165724880037762636327993061566107909553752077451015042686162575089791337590913865875088682, 141894033565852484852428297956153978233481064589800262557250479250181240573411067151602417080886163603715974953995076965588015879017128520793396168612478680807104826361070, 160469381049757107927406391916134026645233302497339791131823974265589599988966093769927663486642687736478089304231852598823251214827107643740852904130372862771147901129],
  [2591313004596721383786931417701968930967514032903550748847975222035532422758497721752873348507365482550749875895803663430483181110200804238771819821650065830242287616820547118338044, 412202960577842375432940624134352210877971734049856052955382030459250033485597463595818020935228957828038238810332447154225167043780197329164602679835066822702483586118985269567958, 43344147332180679761437630581038819013800951257161869381352778411074815593922944213551521877390875347187819822864830075659970794518745890799435929506359926407716774951551883038137, 3137738847971370928753779029015814736994267200803751589047762961472597927438382399583777323056767650972089612012086499796102713134248947887813573732788661253155108607816723910097, 139047453919512139062235136584429948977459596052521665830383780879358367103296684897475310725411714928205837093579231431434142159278238190371519724964526113417767329737997323771, 3264562552076066809989715693482173198011657656308196489454595082781536667790647007615336848999704172348715490418185439181522760312998090270025319341761294505120245754761086343, 34217761297306978904905940022658509713598649237443710812242107254940580139530014756113545093515091907541266765190239804617469820216486929643842512147874121240092419546549241, 130568567825068298016598526475523541904271056285608800318915239647915095478265002568547446760225203658481688756951443848553339591650398566029346974160672728226381277282438, 145006242520451620861084132403388594604223552729928678555914791520770612044784682639689152671673202274245502132320534654629611546370612605983838804009458713741513121792],
  [2537864436067598246641309073400753104647021606444675250788473943847749747578550985764388157409275813357846404229009979871763125467105431505739315337581671100855208352054957437122530, 400839550081457216103942734240455844823961137184073873505606005442905118718395965993617018049622925794358051108522248421355843972634755208403362139144285093618824675136508347000750, 41955817316464337641789055022315569152495517044742958331308333813572264284119605174320155600114861766938006992055203977204555295164549586020489680167654735045471813250168881018870, 3019907712793526065072224756522744725856693850540112782415441203257641076856647665808443016069882728669388178313830477695901015948505643491131728584578291233412642503133616620082, 132823377059422259585030891831708566030581632281931148404153180398326966401760459319689650924492480578089066051635933551838843794351133930200664141866562630626758200356451158747, 3088578676434956410347260450525975552650279080135432109992439886328302972948813019120495202184235270338120263690419672707868201849056124442666126888080576771427242849472718434, 31982636675517682659596309287621497005921497620021284913215768570350967884388243035845633599265042252611802821386260995617780431776147863602080538521777329925748509841605252, 120213149427415767614461323857115552835447937956716254841410750194211604150582887287159745468625076827119665923786584010471687042472192525775893178136266904146940312384794, 131122696084240475653578128354166880774344865110053428822050349061487359182723618137508262426114794917778035848729807938924292609006494602880765841230358615558015927785],
  [2485709911220125801251761710323238961109104687569236488332584482144893913645235316149353805090535051333976571337240765969900814758296109016270457230141605599652643662611975449679094, 389863563805174729491328148049205230507667350422192966853136215008894734406527160090674742614114217048885599094658699852001856273636851484946940767746232376662152026416699706829597, 40621497619736599985077577204100867683700959078901292443122145404374897387855580347228885484996765759992039324881807170911568016903131106767217694482702393498523981177688058649062, 2907273456584257397944264391919937629999226595476595478805163559699756196566569833955313430180535916604053859260430381342650638047973206598850801488901209375255036725023164572143, 126917148934767393701942188074460457693405467646888271903159701942454421958640714040139029648740373298313543329227340964856921898800767412029798026182355509063910381877340170753, 2923155879227569209380743313596203897198303224512391703951023984528278683687786806964268821371391084899323784476484779141858920558992358304700620884528441815491734259125063102, 29906757196665239115465227737605715783952110248627694229161042378296350289663703563336396461909697608429320370780522697637322840570367860452748889947671657612419255553958675, 110738948155938908228632700312175993889025531316929965240681577285643605167200753011823937218607979395147965262277664413668125359439983397434051654617825027742199012788387, 118648176166160211599881739075780300876333529871049429777024387453996257890420972810264238263934078327692005564891662092193997843410692884743865451992131215279827617496],
  [2434814550763454604017717475823575045238034145477052283540178774973659555680244546686890470931791004255290405886134111287075158302415364656873056830428796661096390650508232140412053, 379259397432565070328922491022821988505179287045501601137135050603712622729138465109330665015891703302973572539700225592714152714506551753300270218328560123221139451472242439569237, 39338697842874788144814808663991360239421769685274021391655315361700776676849581025032313259654964152393212549893659986287427940742493047994038426163849424518858013433425844794590, 2799571304374327267211386161618798739509016766911272831441947494873972890348440921322374072326846158555516299321270985871992692753383654788587619909793746604884784244854185352451, 121310458580781655730865785476773976178614727222018674256880245397044533051264155559638176165141318196221064815135735934027233706916144991347934582022398324667447268572653252132, 2767593958126093932356221998780947375009219648357797651130696465983518440593323915193866067519880135964166069348627846992775901025077219184023892340847994430485250643354600193, 27977811839008121312778948641244988518834916007877131176635508788171885547009717253887322848238987231098807517636616476262666411642012787235517718127640823800449797442961494, 102065800377353226704893794319336324345817292639881506588645311921004110734169305585625439381043953519141721947427726462082111201883397280804612974030080988370976666134468, 107431533240151533786462581449525403238638496992660026017249953456307745254404362468938285789438892939178877526624568435167843784323348048016352541001237562239259738421],
  [2385144487029286417295829284580943610484551666535138215253233443444714073350391959962639874173013733830525816934284321596441805640531805189693216530003782355211844239925431912254805, 369012160949583352690335369689267284763619635331357334960350538297888504409039032163422689448720858732491572220871588187083280566146578749390293628984604309863538050046475450375104, 38105060841456761190756015297088029858937830358681572247123121322107008975769017955536628929685517810220956615130768217001303184179210598147617220204230612557867256071458470829378, 2696551836977968689593617509201592955780552099278244853293871609478893771929992987453983759118364060003414063089721310906378401333333504018625323103513561492176476168044939719398, 115986172861450981063523050869411306608583401202216179912462291041980276215527208740869569533450652520925788151833251699112699175669245145802680728808517428094742049430430070607, 2621243636324216093756223732753586599276188121082218436177952131844155577068750741131881835549989981832687804378826647051751414153905541590487505538908931446887711073170842856, 26184517279548715557377025423122159189485837684534285627211631682142370272981903171232991110132669962183609828536351293613198907387358097084253807215406479942652582010857746, 94121311120080513327220944423911976116611477700596344522903420150664612015560267807478028501620838248434082204221518139146396080064131639306837063480840668442466672121298, 97338709729621491838023398462649476532210288801665936808983950664945400859975817986012947014325757070056086498977997476729065026798336309399796051372603302234626903401],
  [2336666833078102399513233835541274800492173542183049330056382913884048925135599291709896782653422491902571870718625184824938013742109173642277080365221626718702712641495864935885301, 359107642612348181414253408351227686412637286017685599403795928828106592709192105876318590068604510436951813539540944662735614798953688164177110461362740417882426357675557378953461, 36918354600841757847552842946427124128043234399200878328427506362693411706363550028839430445123403540907148530100822803828939080996381890474752977482045586106864196454318536371493, 2597979990219868959737650524218186783468862985140123014738641063556004269210751169655099673434811879558408128048713630656160876718563829109398198095236440001808408064466926589893, 110928252656587386087089107281613956902196436293506245157774526820549123436767800438150134269300677757403344095264642187073441436943489073817273946268336880151539684583748075212, 2483502526077913355890153416357278788931714008639267165990285568585120990307104077179934362654963240282421522262657002745169493740557211492149271721835725219030790044229517224, 24516525679953205354387527240484496097563501319795060708966733209893974059587666849080419342256821855171414988867758467002482759385799180240111648021611962143038394199246416, 86840054645514904973284391417300394072680324472120526096548040669171892405175140358358201428968294931900763498780956021069461500608636046944839114790351467253033035127509, 88250707752064311844985889868180932592567341333989090922645326224319021530184553303660129011059064508434992232630005458144963971103204139018473401480049584749847624968],
  [2289349652784877505648772079763347354873061176992748604590961017326581751050527176417476125697845713000009192715537307081162747876626312249021315194273693504645971436212168604622396, 349532274871072258583932397198086505915569170851297460326404797997503014025101531689542010907471130865314285077955866265451136646908068664383610625217510840758497361961487523249796, 35776464666921723286607759193898018030078224969670099162405513677657124210017729121774979683509014083155772024344166844470638759749042785033059815676646562020655385251015710707557, 2503634126641261857916370502095754333741983648651350993115583015533395868024313966892419554968850864079461621413974973482709604852963518617597384766178339774646277135820121033327, 106121675592303469681383873569970203167650384647344209558342811423192566570818159921946203608452689816685913886468054450086888109097351822805851973004256522411099377598793641276, 2353811438835759479214869392805939690220938864927362528531377368446832712892133968035510144679689662666586117443232435443242159359495542626317277621671057529055697511809752622, 22964341328515452192853785141046145292470791442432945417768205969400402652793012306285875063887692083563619380072288802877867246325787928117356335616546729529474243691540278, 80162862107149494988799963064639936714587084296446728935950803628898974010910778819648722379074348881236033140862396924226937762974164308039784851473699752545297543792319, 80061810345990071476197533274723663350914941224350567360810351824744374287862612877939437949991481370750993031997415639262710600777332334039202490287602475964942769619],
  [2243161931872342871322917368904547046893573324847538563803673265473749188718789912282576851883079384227598703552122833416758274238507216593872270493788037060646321785726471618305631, 340273102137851916557462480341455711508590700109953556046827437526758827889144085698104196114908057073960356046857843409942722822787141611606042013691020844408801261941339359077862, 34677387090509156255995910097150927681541717581050051122908166925005261559529608384900757454809856518915621522440595428379912765813575953443825092868273805807542934560725238725902, 2413305173908169748533637474954390333520778867421326169431789659083143562427781615996306278080898844049981590372429662781412161788798803543531382777479594537110965533247392256766, 101552364758521264951502127521532361907292268902612823368892962122286534206912411741234975173623832307640918780951343009997113662764466791396890972348257014559126675886297543044, 2231651009895496515972615453743256904570701250660390713767575338455195534533724626898376481199876422438970987129346449846840873765216943166768168139548550097069090208003723482, 21519245231436584306228417196304229867552496992071208563806983006937499902266002976829115874370429494017238827937923219231089877726095874007296826888662136891765725254139098, 74036186282738613538552538627293241097832554729629877565260477644282735163800688288033681599652237823389719551343258494344596139022012252818250907570001342115872658322620, 72678023085990491844402904100400237123436070909939995137853092488579853944749448773840875124375252091195219372036701363843404365601114261913511383925661425420227189380],
  [2198073549860922087226921623910893614935389890712845114692804153773870346897017705282509252412678868252255880484300046801128395991867616637432101192560345370778441730139781660926279, 331317750292750576509369334037614978180509487099329769738038032882066002979409421773712432103266673026883100322942585479738571372831400005126134535430712113626899555320082150038127, 33619221846800316132656635207347422517015309479355031537616537306825871329710684885359943367148668783748128912670703989687299129344089471255791715793146768950356429931995696081862, 2326795824647353085591683958021340786410467120350770296798295650033924254981070262566031465912032884226433959722336689815804878264225158106270794890899515942614621891384494368047, 97207122908333995886184193205188289305215528640499140090343487229655131988208927457079504545142623234588915201971586609643764452460746892975932817617513517252841605083939287515, 2116538608703581347624717570733876956695355828139017454667823664266756272636186432193884480771980131659913852668701352599134651509290199199085153147371694349352481835347579207, 20173226845301769735142191602433706812816349076101376355794701747872773604066154598595719811011647529372589453318122807563422115784231575717349557171369327721788414643846294, 68411534577164846986822617035337349516277765262411131866946921563673316454020597768795891748458492364005563679273240415578224626594109142338361890759849541751783455716286, 66015707505195206573730986449388348304049066598987693769254547453649262244282251451483133178928227121853000533400429282737139269567440840280438246218004331731624148398],
  [2154055252905495340922146197413994539271965194592183022689872414193686692094644897258789411439341317585983569510898675131916483183558694822479771265546341218131440381573439276748243, 322654397828922526998321557450185853248506769670460897290970406647573825871910015472483271284351231149663511817122046344794496019215872917060157545694868898434719331716735365307141, 32600166694515660243101495994898541188663413255357121797460420212938538871350874440220000215126007012708846458668700918669605156800532682430578844108153831515550758417338808937796, 2243919792890682769567242869172822677382557454228680333923079909255733622467241333380107117744634921032282343201177355134218032322150666242227190356243852474325134913169218591126, 93073571680158429728545732179067039092212418398771715389431128761696894774349963293715708400758958604293316335115973660012092297525794973685377425094073349891924299755643427324, 2008025508757774584200201596688933479919072507345024530500304962181028949407916383410396540824449909570984113911071030468788255293014188734237065277299550040739886941329118493, 18918922229892741358041251319921402151186209036639347702670996466280363951991081489654912603484305735342899837658110471900320909816850432382631224765612050127566155850214804, 63244962552009704080839565235430874774904492580105759153670827687852294026701950351718649710551450305434608053327817121936306559702515585916067004996265425351539983778134, 60000381616015964195471076049289193295718800891823631862237250374949421892267779941718864782991086149884474000775320180547056559408216317670331400311690340560985269679],
  [2111078627490138649143890499713217829986763192235504706217806475795245013289669611827378325131920393083033415102863991468494505629126263034000546438646344485938122999989927315677379, 314271748543444559944196842382323937248962993487992607735362921622161610325185440880307480955943363739023786844946902239024354315730581977810803312921113592188597384834907576967862, 31618511442202158877146210520616478394531203448544639061687965887755197479464061879059392461806894454955939158905110535467669650663315997369593492191220698314728378256430312644916, 2164501122721255166627374265614848264346760211842082511245832560572228952827185759517114154325962640694019868580323634916929322288306428435720888259293978492804856492788600179170, 89140095425205768165175985277482877929293809238960107308407516742847729694796155181949145232794148060587516820891513672761568450178949768802984666139731325064468957689356732606, 1905694293617483461272285627831706883299142282656432435151376716110027646444467123122343181000810313900998270517626673246993680280136389129939420036048838597429476636871827553, 17749557977758343125541259019123030899320297717377602730233230403843566377718378334394609207129463896722417400368323017378500355912183516269833691353498162184830395584159358, 58496621162529770287729943002609834076465229018652512457875086775692733083232034577362598529496711173447910688366465677635057242820327745650489818784792650546052266539549, 54565666144917439742827412962857291999467118172840839131984147680116387101878896928831169844727285620798842011808648886408672043212816849839327534681006640915471269394],
  [2069116074952945021596465314652930257446804519124169970617272650789553385300897209519646201251797096888131810280185950782123557405811983118732386926204563620640132857458320432284093, 306159005686078670217376135845796324300641629654440906982405339323417748323367284218814074662049539414921718871937385002291714993795336683306734472340535358311682971502718850263519, 30672632591811201748730802402877162000755210868780955260048915252427694054000315933364609049467719330963387503722321829907511825344365586010057313407216367604096527837664842815385, 2088373545088903300013067422877829726006145902625249635427659427757825838869622120083094240237893056664282402747308594271814180534207728458309195452810334673504305905755933694211, 85395789260336303945034340941484478895181730373083273272933408987823401240249437887897790276273232189046264454927016986213150077137493893685509000699317225835160498893044033355, 1809156477805850869979180445980516748738467493330814925736763278662018225759285208739634265060021170193814407005114301275447300036834471066459555290655221514731230510413406090, 16658900345478630271359439948870095623224092311333154451542696730016751743594284309785792789048144458304618883255084565859895924772236756584575546113712005347470814417173106, 54130351691493158707586389823444809647388958862912024272820483347260666049059677057938816081001931024842098514096985214565221276512332639874389685448434395888509535476591, 49652357955364517854384906547930347424460809917797882240758150424806894501729969833961753696190252675203396418886813683486605617553873246423735345801438939274133555890],
  [2028140786813961541237492909432667089407179871590002672254642990034346971241634949632190509434623226401445913459345124356116318105590515188157926652101939425849180702627930850833471, 298305847483402391491399787200659524109256342824384065669883416598297083860411968372188984288819931788885857087808250731161944020003590241095751417330357326201877483883341175846647, 29760988332065046399292281715284523759412724177379137764786471958209964675108647669916089460309853269797355942788095517006781022763332524561390178926257336174586151017975918833521, 2015379879102642178837717746429306405672005618580217519435129313147313131457924800974212336147369759346969978700199002707611673076295620406942774217237438016887641472325687787106, 81830411000270028676061743739636460442664076409359863055905168607239797215524048039062142076916448719137982665194052828346606178819130749937515510755048498136449146206468523596, 1718050323430911323335983980843371683669855936366735001674230586429062903332924491265902960541276203262277881748621264445878136823045873331914578550916372832701459022829635258, 15641209072351158924636989463364976530775180652564151234923268027064624216761095431415338654625874442801712764728421819421858718613582985722927344300366824313763972651620781, 50113323077366358429607435449182360350043358545013115111038933101867775949546303197588810797043091937351034057297434789615281160542652252072389272500828000930131652260967, 45207614593175269470420506670559166868983445250726704553828932677301074121632826073549749685068096605307405974175416294746607791587084922552605655240520265129173914191],
  [1988126720880172130548847966538128284374536093602096420791444624698310107187658168486940975227185399102686488374440586119038330040452443599615057815111347954735766784608106390170173, 290702403960636075823815485838015150319200930632045670711379664211301432840137385906987133135900079547514525289529678887862635668290466763719313759976771493341724269745351492963379, 28882113856315665819065987657178829051120258582887804299726152102571827217958792333290046650519654276074381208115425581641314792689275659239115712924583521931026490569115890267852, 1945371474416434363954271520102574741718997827579522235861981685832449754100768112579136890340132285063305510649500082695899008424555237127374244557139868533215000334676193486241, 78434336653777711290558477383697268341959786889412252636882036005558333207373535075962165688446088952379875995814235668620782751242884298244539937179563597166935134429537343495, 1632038835186471020331240803021646277564828675636007679409783340196133753128669720083231388639377975965246955615184320699480262111576950155733230805029338016563713133286031020, 14691195426218979822199431256872318340013281970471094041540492067043721004303539618593688730756913799640082803473603194123113290454753712113037208881651848694118897451499429, 46415706954799569779716938431439633022875508936157445068433503866735244028957775996677422738458627592207960846361707872097191955742098499244807556197860672472516834265414, 41184236008024637228708819783647138140459347331816930951234294507272970998248356714585184300265281373514861075491365122031357194276689505916622403572830026662448268573],
  [1949048578102321273933070567459919845191958283646002500241964144488559472034565542216759253110240297980359207706121399932915689995090476982882440645069108521238418342748920056142070, 283339234988088796330101359371014337530490758182335665562734176324372327597720179372406287406096279517976299373546492385070214159233840042377219713884919190920759405338063493719611, 28034616981601796967388373792392611749262486986169094559910655151892739111853665843771286505781864740966741908450109032934614486718928773135636186010119932441714598159307932851092, 1878207691605524624655213939754807304050858706776573460139563902767672301660259871898481411476108979912774665465304072395345558051151359363964936410084645872805467851720184041280, 75198519196208959900320449005175085235279695292183308315896054707447992945319994005599897810141170887064988587485142144801541613355766767215892788860238248023969500472122227101, 1550807918039648499475833210202954120939231335749818637725877067446437767597987309589425856668419067580710418001117635208533214863510196758752954421562334429971429343508702486, 13803984064151604163306978613235667877630816800201069798062135032933802782831426004471979306468970716285951028279701049562009742586039156019787230516920689179551282044779530, 43010386269587480283468515509605428203940732877365160199562862188002272763015342582438448647422156958814819045635256080028205833625037352594674931364937593424163455396834, 37540031332859921029908529228721069281097526677275952415471844755214596513935964720098534672813727559428296587317462241935129002381094233040988162793239147279887483282],
  [1910881780159210221490755020224814567738244196023912482305994333955788975514341571048476300418666699076550353183898410615233928833291546191717651197705536548953302056942477118115574, 276207309483455520318397478961693873365104753316329157577527676520423724621280124764631698016714613066206098931167764011447943940150036783946898709495011756382197611810385669428165, 27217174047440431693407733846515023975605522387259746083871680563279424848874320410140940106067438064344944029147156608637057707886884969033935816158525195264890025789901102260154, 1813755417686199773526738571903818801418816140670997759549583791260451194494502408229528250890040200456159736943858392218911364637149973069652349016550080347904820843173708310500, 72114450355823145860816796229696317851642441135777561162120222943079768385602117268099808766989271764616341912364043461015230268189718595009097898980786087642142079262590421975, 1474064683391517528907843953665020857744192341299227093009515499246012357918332241592406902458067763920643627216848028681077856378870861310967335126485049776473043909533459655, 12975078338386171603432887519778746876147694874349413287050596966201069600350889967973627529330264205953876236753128448939953051231391146436563947098632745994852110915923689, 39872693808093174539555548650457628966123903054506953131796084283866225124872535659651456945342620038831628489409691255038410257269052436108894455724623705955089739690027, 34237260181225524457829553262515534727580269713909987952723474693694401415067527807833911261582333828619986496353727301079481922424270661374564679736711817610394717805],
  [1873602447745905211346328007839538748971024273514382492126606652061110025067192358490842653447671758201369258640307151971844694694128922785123286296360634033394539689748080888752262, 269297985705245499815637467895148790374767939184927577735422177160729216403105802029680137506839305619666774421336612030341340297537975347286808493794297104974970621619674348644117, 26428526074563672855587483662723149437529575406945441306385759940755078652362791020219269896013617675655997291107138692088542614636770636845804285635702821023232266329617245417890, 1751888614164626257336540150557417500878744522203367072526042292377516659428688237458931125774504933685915571390269070507848175412157043061762961753877988354553854972694261033017, 69174125174141193871750902919522260526340962103557262251837261057849646575718666116815660743000253257475775722147262877514016591871099574124492262797339331453309116952950594692, 1401535890827979004725488927409886197647050529410821852790212048209248141946455080773557932721710909137882147324297383427788232366554982822950972399138915685527041284055739112, 12200328715952797542361009477833426608460235430925566070172303998774966519802532621429342796725460709664131198072435524296197850200549516354684658256869524269399211726598231, 36980177401006530949842718887744942956681972433498248235662201855453586208620588828627204272116005136568848666756922307669107504397339130321903012738691254480873888257736, 31242139286467530009519350996781180334614790152371164218317883871845820070965714232185110602855727596497161236709619341572483776071486960085293114840443807107974559341],
  [1837187379543077983964543434337080987334919925951022628458135214807312731488333307872971311753443118298680236440414653446172201765117735574178007220108947375249451079131376924164189, 262602992576422049832512267954663149022486684533126702974999236305431877569171467874957842569382878628308482812439549915818651330610144914724053216709452731641325350497632866061155, 25667475165345012173886537958581083244191719796571184573116947308164433762389574980104797196922885812666747914511484279094172912398240178965999162965744123037406603707489098091510, 1692487895212595242313131468978441317407310401867294451284330499236831508616040730200869624126655269639608109311926990581081764840381337033449282571620002133323969090561852007499, 66370009121167908177268910024983129522976959064396429457517725352883202944242075418892945194174004896348720135262093568390628090923307963928241571778151615102803463697066218014, 1332966513775761308910904739070938719401988368220245777774735828229359417893152956937653317429044596575174734664708372296934645895751271485504049634460880129628078630499577609, 11475904014286658120718447282093513832575164795732997224512007169903905808179967108080608696042249175584420705672815689626851382941373672278852095351586837885784708034527342, 34312388930621391799201961824593662592428151767178108336473718193266262483664415343387508711783808076899296849452690969235934774133884143153882133793014058500220419419227, 28524406486768278442091219838186199565252836581107237973219967071371487316886898824580058369419516493785624411981065857577581436404302052406905093357233713110830715534],
  [1801614031845453256570049852971411149003341198668096713496582637537084714627071749737637820151122476117384822695450552951912905357764203132171636755836823581190830835111331419186754, 256114411980902556151336782543523740578813567218297592083094456232077372781622121664066792690695121846565267907387114841223997355730000227296593453606158879627765495802410249077024, 24932881129063505974081724793322124421669473183107299000696584429397612340482849672270218044873436656695561968271035939695309746216485638715122642960243721815372568777552976750464, 1635440133761528785174031056757356679887541903922726029916876953434368054320163361978102719616300849167428791477195537348051601546306962995146292926789019390785578115344452906181, 63695007565057161311391594570285157920499811929820751415897260287005666267357622403406104816196911447208742844415895773829932639632551726873465465112896179253473976542605595974, 1268118418457416025467868028684187526896029133560100005959987592505196449080184516730619018703440876227648971165642877622559365074349793243140959847776436047809992742186857742, 10798265185345016379105381187300897494430179009892051771744910770913122759356270893523958209897301403144322346057463149443890061350374222747339213076311674894523486614780148, 31850694595937848177556223682316989803458291853431925551417750720346165265008150459435598433902101716306032201853848414951042245617618811092917335511693409617112517235400, 26056935081774310644598074961957261243981836990136282502983114621897972860504886676151701039787480786391883593540909526082515951988761604639674970241566125742728120440],
  [1766860498828066780517607730513565177768016237923504944393825657957782849687623927304379460806043502361131838067181528473090337487609589945086213741714536287119305848528561143416656, 249824661978919199951029834148713461167983752208650160794091009184541086913084448523121846465777464683649271563268823641661337279847321992709277030894821704659604038504220631582498, 24223658316441627122621257604327395646454451573154897868260762128648088160231038660373979302952093021342862506395382443061880220226512936614961544211755272444900981264974814602659, 1580638093482736556944890450976093816717703725998952662071287845341828381831638435242967009542094246178758023305231520663228023557370019901630308117415153531919801260512534142124, 61142437412794909037880378799130568932825770254615101148410272520500223692218853479535595780050415823430450649415000136249257192106224592216349164225672499992563668299817398683, 1206769146511859994594914896301755973208601965972326846093837137719876850884576425659566869723498587923377094783582280168067112228569977190183789946855190064631389082271776372, 10164141407717914425853856435782254686332803612921388298083666412501709136436670314825308365784724514647669471099969558650439349567488609582146844175893965043930049344468304, 29578104176365723280171189111958754203673548921006906229164295722693027366460592958702226292431920058084103165613116420109219790566814127393590019291368425446834813993465, 23815392472288557453285639110683049708306991582728846610340260281269430514488851023607488325462608160194392785010077364621390845339301051786482938293518272621951436474],
  [1732905493429741989701210881511331444208082902561791087846596244592638027208201805597273280380386716633934326989056926957101012172842712804066420878352213785824531439823336990174856, 243726480890389099562840874964722874687740750218573559953789985010487304199832215957254968731445561152717509626582766433856346928548592308629946079499180431351057535193275257610694, 23538772649073241555285291125992363386869558382222836114777950220948991369773743034180524444768073487530561733261279052084210028082761851284118232974385989387951572736577421701833, 1527980084783246949663417119625777508373320250348815543574702330037361235192396778816597116010520523949330874779161443732727169110870666072851062482611513228461895159324695115741, 58706000753926675876094821278753217252395188679760722409518616905455095928623843784086548475283131544246526007202261205366879889146396679035848556414203226185348058340054880485, 1148710792524539927853640736712394710848995643678642019828064314037404386532739018733740900712542761123373311892333460462435062363734386578844106406585630318565489574734991762, 9570508270314328991414495641496877712027127455338347054020646438625107880311377052620535141647624503077722301841054487612432836954796905187708994557731286904933251372732857, 27479117287435776132325815193272963737919036457011060033002636220628494598925547289757841487784392964936249946765663352576294049574120470303114321449775937263200959796576, 21777937762963711818541861510520806734462641504882650585169605096535926010322777746058958099440602213728654211807523188268435574026299239813012820789542500017717537040],
  [1699728328833873904139226667045042835162790750516351739662818937594922351871718267719870657090092148222090736765143364099493626595584754403854106236953248410806409833005816440564472, 237812912198400071743575761374496878737966366367012642196670010717811870668607969469933286383648813677483955972931912877171632293015861190099935768444398002065255877894695233794780, 22877238830441682455866607507613034721329009324975960771460306188950115959238295048702733849970992268886112688626161651595849568120363789078270776787440190917977292782230056207632, 1477369643093996154360872311121184903841859386901802436998633890525059701928227773843740425583931778911404942135827641425198104336016856064549828137897367541842770884937902864249, 56379760353408243635979857609685393365402130338055263484030705347040292433638376962862474800069412429450597724868513655418659184061664414510934531502152582627266244834423230401, 1093748968503553952182416146577867111321782224325696555016421167801548300762237212926859409866925323745272048636792605737048513838789258246138967257189992535911869908867636333, 9014567852745061686955986107756447437845461034691118158761579623090899006468581019634381654090114402032465596225580857875641482172207325228960725896444645163085151075179570, 25539584844902886333494500677265902869119399880626729535838966940989288325935211413661305660575133895926049334166435744883874939743482198095185590071245065714960525821496, 19924953675306327127027435866226384540721576577949104930941528759072973704753675227514036112198530899704104604239182899261041058982690410519454729867814408530695566914]]

end TNS.Data
