/-
Generated by scripts/gen_xs.py: sums over the first 600 energies at all nodes.
-/

set_option autoImplicit false
set_option maxRecDepth 100000

namespace TNS.Data

def xsAcc3 : List (List Nat) := [
  [395184135671672527328484002700625119139046733363022906057898754866044357959884462893372841189069640552642129163842297472459193882005606620255920735812720593909812316908299997607320, 246995382626629289217665442425300741636534870958449857655241536043257088110292088792766224464572432619024237380945506866716181543241383676030775455120944253649236641948773133853344, 100291970203011918892775575453467045815185218263659179130697354335754290996932810087554989442418670713880836210765536554729601544503511774864573863088025323553557215414919450305552, 19708147605577789115384677622357879881083950745501396677340956973974611694100379795065372042782787067376609821506176614078208203298203687552387317726296727385546616151120802276458, 1567688709592321501005967457094137709997169553360436331140285039310073186192248117628362707288735376790418605546585091084815603685401787925009136000812320711490789455597175058551, 61142156776951151442998352367434576753237995668913482770235611673431849981599333919825764142237265387021080469636056129687822886445853626764597594894678536617215200477303914470, 1206769146511553943478602852107059852810005813083740878838536870502209882617701961234880511160805804321314027133120440913919528868565868823514043708618403843864898025461722921, 10164141407717914425853856448720815875770887670943816527850246925189162166312306393100294990921534653608818499208458027717140838089314453186650122927558047346421658249242690, 29578104176365723280171189187775086229286497762744344316618474634745027222250922080923803045283971819866326229719718261137348068035308648702045460426717860612872442734250],
  [392210314227461232063247142610714827792202317536857946121413632213513067343404620904928868351763613732471118591207584619622309500725348047888423917108370699505608640463527719592129, 243386572321011957655824569758070975664180054494442127092797810166971514310038024034271127208348223211657594102422211321468032240972148788212880292251683274821363798364578628674611, 97551061437890160413470143348682927311273529624481850964141155638743778618398652257537350350069142171886386011840765766108312202006409405866518412645212369031991494885130582447922, 18792605955266912067935802765601923390520885237744318214781098832398649783226628319970482186024067524205690943025706959643988852539575931487447257199886373502344729191393061403121, 1466517669163975705130338615535807605546424794112044113854100825282934675500948297859430346275074202000668796181709854948179429847073197896384165932805681855396957974090869342616, 56379559219533681379963866436628430969579985365373270446036373467023506497425917687839892808109481525869019964915525520711105836253239198059161844126921449631880257872345194692, 1093748968503393869734492892715449197027695868934389825056163075208178382744685550870472760981018236371018482839321662685894038420191413061023406692402520617961587389534483438, 9014567852745061686955986189831013029293861828557672049705605404287578571198436870972801111022498044311935720875638424114894177568723048261811532821707278764649139948391188, 25539584844902886333494500690419705461259012749862981768167436415672297132054473207954869686739231089414809900569602414040922323230359962690966136288885752564388071320953],
  [389260016174590919851413064766827317291810128702550631477727342437373206226774657590711248806964037224350020627049053080903642896783672155022414712227761026300719282608344778851044, 239833542766927804687492693422054033473293941005941740630076922684730262411329983811536422540818624512336668669230930825754385506076290081346315302243053545493438562631608442056866, 94890544426918122455059324502981480198080833046864910266206460756793486256555034779377623255942643312984827539667319889452606531092867539410653085468005718310005400339347040803064, 17924167299552397402568769777234377753467002987077110332924682832036616688579709596291700347757507654234210327229105941801184191921532450396806812599008305513284805560428503506003, 1372832611793632731776856113580508869952663762740791414446895763592956823211243164073792895562751627948035766375531313152741780104542515359782072669892015763839198226010139779530, 52035643351455505030738746809034573766841528549833112324083689705166521878625683097414628178573259545689393206964546250140979216449907184783420788744575794415677723423983735347, 992399283648777201048881769176091340309171614796275343246474485801730744214211240896996135276757683776622517466174727639856163680887022715633589613822826092002301156786848037, 8005598320632742366975970467766907969111095743714147688111576410855092641674331721842460877703849647676905476743165694476886723213567176035233417870826824221164193543352743, 22088306187507407751716483159047049430511669659473764173999703525987173389327657445673640330087941219534597221170930403315856445213504827062370055314793013554636948520178],
  [386333048751022804195308847358984433644470272218710406983271090689043886573120148457335588567919933098634143028430196796192976849590177333873843469057096987395922391661874483183115, 236335396827321949391820634783912344951390938436116048284153214495825191782506860768310932698652156063568405316814822000380615292853475780790588046440944669896172263269535935905267, 92307940402934892338740379385569429104387353951284462617844014759033998792845582704865657830207599612680975336024980429306747055992816794145503898365787202350837400245935570720327, 17100219623906661497616712741256470446250980619788098739289634222697115628972865779672949594550526832636401500863781480331489564685211667235045520659746653938424487783001148791509, 1286011942618482501465549496289080347785786440117743325727303162770555629086393047488871258954287834508266605363290784209334964015689522867300568916850716018451077723933241624040, 48069303370979447261551017667304326557333661955659196655632596903580217617314046545930290292149385108357233212148549525339096610902683390353744029098550537881577375387076334571, 901400794928882825988586661210012159301023246495248225386145453720926988972221948354733239075439831450741190019841816860419086006671652986441865438551787507008455770635579421, 7118725657421779862570417441148899836988157040474420587954644882422359812305083320207760607301030618990121264991662930465368162938804970445316031374810601863941737119002061, 19133650097047806921831468033694185341495834611542860645068204000991399642955599839202180762787649586763394655581313103835199419723988201443636247350106346181415589623528],
  [383429220815853883447583167265327227517402920934974516796022823365399688876840793244948810107181201232176358121028203631173624148190572410538061135506057744919075916904515128991653, 232891252219481309613457265194004798679453383399949945277361674514227085576492752463326412798285065912374202551075147292967715010945023784926832843697168125305456939718050446849581, 89800849858156256455923989136956411043972472179083049653894116893841000950332828645584800039085660802712852523939540239409837149639707948457963558627410609934339890329731058289261, 16318303999684904923611773737284050685947278097076254329736498349738402507514238613115732998983066725528267602831735101875603036837369556574562353888193843231597438948500821988828, 1205490836676444411679820941372013115542344034336412946769721148119973050232534223539834366768318514569187505624064578185899918578763171269031776665150096038172955213091549653445, 44443897399455984056267383003057077987164367141803567764589180885912679594661826224308620480804564738822000431470683705125062535527763303690746655767747118319353688617214377702, 819596405272716792117097374985460743666678498658077199916956477081118824122828403602525048562168057265997475869247168049737330167166336061420715822022176180655237281689444118, 6338052359281133992304358038790103113668676373575120753363696780119388791715013344629557376792154127628431271868656179188066128872785783310391622871715604457361994161985783, 16599789224659512737683658519676910301060999537731155885110437745399900712477379120638578612320195656791446427944363126544142007696032633792573757012106636040211734655587],
  [380548342835411366437061085819327318617873539611851923926448133099469894300271592158725199343127413813820346062766476367493671755650305640072348033237817217542050045333426179737477, 229500241263624736894956374797893318678058739289796100775768568105114282787960475308771037001446841670793311959285821199401059211778627930262991107433828637166903073926760898434016, 87366949939907803275291457715600866665709867558585711086278781589275254872954866681685772313074965032008498362477951969209715595610875313178040205433617359889793189435042256071412, 15576105232671755114364589348226130245176349245639753785695746398394517005109296652292147271249054716387421240994528495980518489681619339283835695271292699264700052103729990806934, 1130755636885298093653171323251868895526446748820294554689802675412237855208769226251000780107092452453362990954340083352738195681609155236783378115773485069949379300632948416095, 41126715971658233119654207683438794057776147980130504627919916868539195252651325741609322986751144807765730879812844239719406934218218679369439569096072206485633168623110054652, 745969661296526051557467069752181781899880590568950317402195861949930789719979642755245958701491969083930175285639837886475108601042440403704835128802696658024172066355219788, 5649898036890238086423130707962086333334595137872549863825249954033317847848266579434537102634841510852122954245191981906362978292988932784086958860275000822932302740996444, 14423141240300952418685819838859253459418666974268416613444541342956642618772649009253435016139825663676473941810459351989130278604257724577123872191114888977662449530857],
  [377690226869468230714963494427210793091136883567667171892317290517931991518735936863471377921350210517021322789687052937032816901040144225629753847027629930209989429843073902356952, 226161510635821475600705644666490407132755772003056707987719832152548212632089090931809026497944883915621670098821789148297296840573850480049673480634524694948916591155442489525660, 85003991933736944194640537243420598431086665661708505597233637193949517464078343279115347439203591068262194434874535448940605656580637216920523401394843083665146623751363650082109, 14871443101178553271201986066703127843993850673352795426716570474306024824312401964312385166872678689503924705732476992353057311044135004150028664313294866011319295841806212251084, 1061338840346253978661912458001382540173046515612864889851778026146070108655549168559573481047593717975624073900407882231524753016252488345781419543557564784499541320455982632949, 38088519361117375095954198077058892242636934489761859199175422216280634365314924368287024649538419426810347288748436521852858433509006454310512971935871469128312517038745679463, 679626276638549538366633053570048298598131072231230117068930562049162469333720547075269447768025139456921217913293533911693466675740122737272346333502893431419507096829769062, 5042469615420500488506540091425051143821108044366736124707189875376440073811659038169661996728692501542999749358058961736911766140194675379617405869712848810382537437175481, 12550283825506192022879474677032185342703468172551656218123218386600203705013766199422456562357852538317540335781281845207567222099148229854084717332754642107114971489336],
  [374854686557578845102516672050736937483130086986928907089466474485125270797920603964822958572173282047318608624304601256300201102466198074649162721091219128595521789698139615922511, 222874221125162410155974115647406960314166896276797418430440096500027874490769387698753220884476540483680814549881493904261786710120139965495846307029978146082300245266939064488912, 82709798830923408946047152548791470134679640409403614097949097411675342646594620035511793416246673097425511950627980202842592799995623019075670128170901177447673184059289597900971, 14202264145602702949988463264663562378520996420945900895260519275669451871022449018120041902905144489027691974029167793392173397823294218893866569174625366494056973477895105758450, 996814608026951181730656365276243564793063414164504361282410481734715215443631796425737754542720845505270098044338666110346145083454173450785858738260433780499352591387799546185, 35303134115072251086481542238937987052753704515647611876688351752133324244903766636018352258581393477048448923523882993751885180025508404097054170222980148451781190436810500397, 619778264336948947088969146544419308675303155840442730984727690133666370192152098677722055585685719236711435548302324558966388586102868275452026744000990856259180862446506879, 4505583655676882059258756785520749756138568618557407768018517451148545253462952896742875767092363486882393917420939574699888987918952733463028950250501651287036403383867663, 10936242951968955134831442512899335381701190073562393973609949186136168817961634558378907941268629023774642778069216334768163878301315196404951248803529389826620258152690],
  [372041537105533597738562732331135201962512493438970680638157487628118519858517305774417615566635033181680799561745811734509697635480975929615393072414162354177616400298606146169989, 219637547395109897172685194271579702536946897675310533124215163146946364270873333653479936743249012076104312146129091471248936295483837572243606898339083076272437362186469916545726, 80482262977510788293114256305908711974970646230953450742655727683469857297489607660000611508746390622988786497463444462286327929636605255544797311442267992740163699332090203919624, 13566633973869344421172722584845343674526457597418623404460026257592759090772771827854032171694949839926417671373806737841557911124682170835193744856538663058247578016985520506394, 936794740340244645513502946404578632419048116370556072877180081075538783138977640945665006379494319445560396783049983908356419655206614195808432637365333634110005881694906401021, 32747100616999917595825262860497644802589757466946650497024656275667334661108996835391994860428066012294278566252310298721511468862651832835035297899731961652972975056580277426, 565730284242831368115833082205403692907224814664554197437394867654666247232669908879748056106593655959018702021638604383278079214505282532626229778736096993047167249041709974, 4030432076733658087727641510632628799423189617399867727800585444197115506204100485064265418377192881941616073654460494096377019845362227197958019212810149267081843047565872, 9543084362370746998564874746239895012636248175815607435930420557457269239833067666173121759918594654792182511224092439908683471731646038999113820608842610397295333165627],
  [369250595271931480257860720997980695821258832154591959867332707324341158693875598036296528709968988479617549747273840767849262507834673471774004811487836502522054215991326440195937, 216450677748953288347635981557714941552958842355728792972106890440873649630263804685861788800748792993179421716406503743660533354599391711379572237576590158361513485573161824436835, 78319343802081113346881275018356600234175245221787950759101556615856974953276187503588562378819114697918940412259537884061266122651212102608383627811061566657936221850785773645829, 12962730049516617877338645573965115723116583075173395414742825675954160469974183792785387901805324657929401984814852498533669270625129648765690802515041695501874498580747865437199, 880925067711327834403140477896737981046648384370816150811621724704279206740857268248658554109560853932479808146555335231351843734948213604175112869316253130286920900849455856632, 30399364707432903642056070444666750293413719047501150111675661942085481860652349719946004771592080016689749916545809671311513473279167790867946299848147919322796937932876264817, 516867874804038717561647729269778550103871037736871653280066153578224885502121611303299935487588321111827412865619971120730201668416087269284709295814987191153286964361789937, 3609384099429158529584606457342373284491937121935805094523813076391745194993385605172521486802453599714427483468043632172513714116682073523652822603190830328557289184143117, 8338751934495364598678104547198992637798374690410476478195359222219023224228326495036437758545876597946933003999557789141502346052871026696394921911638991276445693980619],
  [366481679354869588078114414981953295282562165020864720372613769383427579217211801124415449054017377055261531260171755500918635090427493987382956274189139756730503203648739517211772, 213312813899298535824977080476320999702469231326997906709857792119929245636791892135428971582712275749711538677870246058132635481029555994623574954033062518395823067203028926573229, 76219065619590404877562086653769655115436785966526325187022495975212299303576850983930991658577097804578254306660454862190250749152565882044380401825675054569622647298717887611402, 12388834931370303102220833585444135538545167667575132109060462737246621280873040451117183319133470031992223497996963680030486787749812041375987494989217209587438486823548053575996, 828882211024511808388461177250391040043645372120995541869661618287789709320313732022292119423849230688302586223037631644576735384175935379220058200694175945571431230600710899863, 28241007414916290670518671699016863836465188667669888470980705233934810205099406333844197685964551768337034037561654839781812198524173104283034258427197085105283648883761971347, 472647291103035930184755935658486737541448766417433785644260572520568716355752826205716858378622428958141807771943208568095569425235840136878393082227258027952999352117405013, 3235818483417596560346385441099987215992064023938682048919421688784379433036404351573521740477184243591823372856626929410047618124007333734378990641333876046891176209479618, 7296107552734310320549351277050966059144830450583178759554672838166770870492937388641984880855741253603279820992618903676274427478581421365844415972998006296079902510539],
  [363734609178748506037143081631236843843887228593263703374203612595953602928933735468414772270318417773913515103868330166188627602515280899180626849300961221749325535233587598882070, 210223170741521534631024769395374279286172615411329838735924226815664210783216330809097969971584360284560927505198017922173198244315946925332092908029429064419537237182798435171860, 74179515508675719909486392684867999512038957751287441598717989448935873377129214826435685383672460783598064858278352995480335680992006570365535694796797396265158688154081785653191, 11843329935792267707995075661643324812292161725538333556411977626078144203622067761648654974101664014381098370065299871765283508132792427458719488390761740405286874235462802754300, 780370671956722041942814192504884316923202158595498504544390057650486509894390740730797236179795057270164876847252113730844380708778413269848678408369730785768299269843418736209, 26255007710583453662703138217497759824408499333936015100445052464797864152262814275922754051971551420963111245885534049769815318641027939294768693431303255600363602055661021667, 432586714727123691183445918301558185054254099703996683078658747669454029616881893383824522630458832045919066919880543748335291788535481853961797787081410850985818773066924132, 2903981153731856647285971261538587392339164584742681269417447456110374357325216483554058799298327988684398164796420191342270839728219959144521222916181334708712480954059612, 6392135834954713443537047340776775932452384365383766549320788559601017797288984581366923227764513749389778308655207566851762859508053718293206046392219435091493344568731],
  [361009206081192557801785210087903977526043513529188637188576381224265191123762407063358934433598251094964457871208808815105074257696321646499342942271090089687423775857417332326868, 207180976131116097226532173152007527802784829010768161927318750888329072465234559025444968724832643012902391303424988723402331520986429802144206792482230014259837037251893409534538, 72198841259933584706052181670618945365136141042924434056297708620608055109636639196559548761146093409071638840386546792457716086749896885380005147407732257740186660602781394575451, 11324689194389789884775084918510143439110401666791644148601783578860419230758676508854987462675284828598448655619250033976389500386230780823349121652832705745671943713278084898086, 735120217720148666099265832669474034705840245731172267460362767507043394202675243823764114175810096019367174251498335657439760610785138885880457837666047546664261861912275941261, 24426033928347876765363985436662959175814154149414186781133939578875196258245730187268689970676482565887428729906255669801185205338709840101133925619804007785888393698953601543, 396258637466500117998283975754732645717530545593861499878961634194304183840213511902330846917221606616462120523330195145937148956892051569962859302254458022604200469592898829, 2608864150283431074442061978457584547831731646230909772031679240613115064366780192246870921833066576800388725463836002662260769968208323485141600452155113404174081605487106, 5607284036079547037815530142254768400887679026728300563811460714264933449120713157145050054886923375017877249760518121515944095827446099414614208135264243581804013652908],
  [358305292900083906567845243516729977908259123110001474173131001074661486872055886313482477660615922354039127800950824434022979143661866442809877669574238844115790560652044788808951, 204185470664868673582615538589323776586146893343100958533531731595141532306551762541955257591640131131893237796786836031848374829859278852766331948034269414857562851942126401136761, 70275249392755946837972951964216731258750035739519884902069743671551284536056443775451532480256756509731037660594114791335334330218891869238983487417231575269479539737367505342615, 10831474081848639232140705073302619227479692582822200371608308800942445992808610721314557534664479064575737330831371044165068640596803533908063405597120509287933832240102732429269, 692883528723932273201346213710334868278346833256520803814168690871658855024949094681213180813670126351509069980082752785594412978906382322401677916248379206893928554068373893527, 22740260109924016906111567877050993549915198193431056400606021592730261114753954248653979832202419802691128706378181628607241796432142542743537024824399853426496885783436939839, 363283251255576979927542835465752017628938223797241122222325506527081270699690180034896205977929166701024404474957223366076393467568650100986783981622458434918051934833027474, 2346102520789270939694961687257358305863854219976716986973804081705372658306566958669303841288496646657189401102328813803133949802208323173054008407243342037911340901782895, 4924913038430978372643563709778595171893746285549219114767628823994906710945756256431201674964333020765449034367364411492234504122609307359609733229891393501622060843352],
  [355622693960709503586405486146115309615079358037809397148851488558152350365313250193109330087825267227681580657132503645896456939372634572962591594706989800378749589972215894833381, 201235907465793126867553362223272175855894320538356801280964751861718196369091734249869980739285900722619527542377312855898648139829848645936929830476823166768278066915138599048889, 68407003238393014197466765199883212202378159418236376929419710375385240808135204335238946609292587247183937883895332303255087873511813824660853793939397074771031559433898533738982, 10362327990210366733089308929609730680416249427469463280683951073500135867839069913202169973407382644792734153153528521681047552579952830216858313466939032726211829197800899335474, 653434081187784085628105758435585035010205454057541424186094083861726624504692553447943948022054132197636295563341008132846766372460184903504107939667722090204443648718313820608, 21185204057840190654700026860491042250748586401548985531339152315440028150632842058718415283393078883397607549375991289403252016721102559732177024837436265850748499107017242208, 333322702238571929249372830509344401382016941581727310489906150967382421152476270006256095181809495373938111106463412627948043369139680711905722142470720849399494239061028592, 2111886342599516588922222235468625332389807218356382258028391166000133481783925165366125899534141906237761703745986283260471802940141908898826172176394232770905577470478680, 4330839829263833221845641105757299107819771349110682551283946756472108113738298722611493547783533253653262007719506622310640735666777760182952641699408368770593077015928],
  [352961235063019889986868710283553412743539344209648641197679574901398743390036239464549384115393554917488031668058778172089963048574480810393935129926593476169915808910879431663181, 198331551971760050221439268461406482679666370872033909789418489753331518739920145229979291353250825021184015836513136642382787635734459867408402489545762404139033608211020877175411, 66592421086992681491594429831729704776806728673983765381721283691210921920456732539921378061641160030785593640089811910077885940834642345272269985400540888972098789166820766964004, 9915971427461553332027483401104496852790132208882039846692411428722668245414522189224340342768492556381719974282492340136047077389771562450506474521282794630924442518581551926763, 616564239854708047587409682266666642477387338433720706946603925249701121626613468286442997999705168317944072906723543950621667493557806750873027158032494475970160278031552132848, 19749584325244328148960276926673694544565072481449917734926428617087211915743286918221039269778580082203952665051450559108934685531833924866874796949834169088274409460610618519, 306076088203923473631954435299893583521688943139861303999321934381240623374196181380080349550478460421836566463350077106350991854882761258709255012799467021055095315621553560, 1902885524553049078434126721582182197930980773899630384882915835578718201269030427318215512631620625315773202958735740177725155336716482200032206618565025818922064964481860, 3812955482767069103625626727389792836352455406583665413033324147682988221907969338464668000420445966210124951473723066598047127841173385919882243793805088892741991497264],
  [350320743468998866221903897112840307332703181515218222334884481231290382276746499720176442173097458516523848820802384463589934154215655367822945430791018032133541355620135813511463, 195471681727756264575945231817533843194097145540010380553142472961835041130039332187723415554433531580832941211024008181781807819175987019309779283395712433019015908083612030512456, 64829874396443777079732889174287253479237923978380392130819241989303475318444576240533733892454498295314905664870837531680385057976230177202570314536363519453461011807991651220338, 9491197419747232232701092771876292149435424148798374176030703381125162946806296266939598047827927112143078089884601248382435009399333554766958187499336206880263654876019001693360, 582083538704359597792176784576734731269150776218967095802525935517365120094972285206849590520055159998415380137761370324296628423400751050518997141752880737680507876636074281989, 18423193751052060453734173322038323781956499867913323389641558074786107834278860481484848823181061442411241906703575531014610752163816253955024727969458971353772151101446986070, 281275096591395050466426990569777162041753392614647580635192659838536064474669270422396869496809006288602600141646572844002351726777617895297548960346570428735293585948010027, 1716185424623864078580045039347003315603973404529146511419356602876677296704416278223187598689563009849504707415957296288466881468268531614952260017721755439663883220166675, 3360905584111341729726328686173590702877788717688362779891664850185048816081143934963607626938957601840359311424106405195204675934085222909962382749272472355397799262845],
  [347701047890143052234763698024233116794638000106989198236104958221210851689506417748140149023530254486745452556858390027037780508250804806197908690376934485163113203279384238609737, 192655586181711271422120113141775676686648859331096561948048014704124330884398867831925496555802586519610367597218318590689540741306501354868211019062566822440630386507547445562741, 63117786060925193549145199196304184248759379653240947843514597707770397413869187799215040934124425370314311333304550873317144727062919703233645162467392394417621074840438906370119, 9086867197869262102845195687165764089833017709206889962463230464572280141774505675070804159348124423503045293731166727165531337943898863326939275958267783891827487925833125143780, 549817130005907935454224288812533472785618429107914910332685017246019412499458064305303758876658932358582809700379169365587941153468408660174589131204745597687092817936526429794, 17196787473188065388038013301103437733794345539983261599544033684028652427333432337468797762951701673511225708024561928019794826358139812819480314852691900226689408484021020431, 258680195403757160250254738316708671436528826850881662841562801553683934998754004074607229584046465011702546842037575049579064483299383440344831731170816261412476674908501754, 1549231637522653376796658854113916793261934906349532636169239778808200197021030074737671672627860029103384753721403574860602400141747312989504958477717185539771878449381622, 2965822396576034456047805806922717001201604054657343185601688750221748338845399016470001621457570345163764598556723873860592742113874695526515865875521305815560785381413],
  [345101978475050370145946683826265329723548213545283315204073768406141825913727260312171936429531785270735829210464474944569186063338827488187083440137410376984109340204808501937070, 189882566483828548208323866202640711957573845648249605744158178687653863601780269480497111060715056007433616074146108127994158696896873078441838721629236689318117866086553015838695, 61454628737135189190135868602243432104123594484448336198557885144056720122861908142086345961370448452650930341771641898534460503388888117582556881324911518381102163452532879269301, 8701906149989543763618603580465939627612576818399058343392647637982032973572328417943992978352760203020285237600745254035181133261021623921437987327199306035384658614815036776427, 519604384207198765314318995839848775201768010049484702341336368456938774295746289090568284378965378688554543301329625133738050473191789364389658629589186518987340394848126383457, 16061983629953364807423367184898631900625252019035296078926109284927243609855569987082639220025103725734827094758660312265256477192036701953453811269092123726786853956362825271, 238077302123079953853732212976334868112153107717753199254692202900033080915720606027280086662024971051870268817165385054383994612647502357276506724428770075759357561695249735, 1399782570545686430885426064642459431834625199819813446527821202838161553892815754277482169905878672516189497674714745536303027348325730533599468592198119126203052937097041, 2620099989979665565160557107477295423237195898581608411798612941441690521182373633052440883301045079930572858931684526699410735335557681740519916609984217794493783505919],
  [342523366797116489874602797806471897907062293919198482569007381875246768783782836153288558653729503684377303241437455850222812925328427014325532333106429632586121650997546370350248, 187151935289360668024551492926869691231459493105595840346719217826850140680583533252249777648242199547233831790297046681386575265691748630585137748523457932989652877905117253489880, 59838923226244856209865651620351123512404570501035210081081876644379079313967612913899839435769299384360688529075176282540446575031734873221284246965475541623326368140550658783212, 8335300023633658793243124112732324819884908450262261676989550097048709834141778702867301552307430542339469415678801373722659361683917168736196147146406672898143101189106619372027, 491297625068594879032793952370420979623292833245873576466805425893841421575019414892865063459144755678953818682122341707534021473967275301945239375962850227965596227681059722282, 15011175197125010587427845712793707378147843463768247845069113984364827660738392922851012893537201712518504850720697250821712367261498052912296457759725512402700447125833496860, 219274866528727416127400019524932073517819286906901100663019616164659723422984407104482362084536043060754660102624846872435680401098178385033832894915518194816030508029050905, 1265868645518751710452665229448321888288642580106653166207292148759795880321147261890307023365699733398096428364469914603475817326005531679343704286815273025819814587430052, 2317205107318042495130527995014890640730869523668558722577057368873540588077840261619840616058726031985779667578561959941503431980230139895245613255814121805532208381539],
  [339965045842338286651132702119742637510789547064012092706872490239545726782672042898816652395062644423617835163293096240720276280771938613784185044455201873710131979589355594830841, 184463016564768299753481772243725818280658648781030591198348257634466148846792714314102180637674660975847210113980686941779619508376437963534096292677874525380164433947433095082817, 58269236909687033533491335155486085908187401145218449246520940801827699485190806678841264678518787343300701754313340800789640294307751161713704691532447639743950624943356465792194, 7986091361188372402739424626422093854740842393992583864506737130793066599397626717633337585919025406331861839699612450308484387468580507958551945606260940739406504424235929585102, 464760986144142761040718384686284359048211919407763269598823699624211441483658351664408106632183451137977558941035867342550523695965533965903547489726015485271181951829377590189, 14037451612300499128294775813328123784021675087672234143416651781130224772176571090672997844553626297323503462190173073294721692087233767507687506403662184703500590843413696466, 202101312461486249116279819523064939170913033876090538411771320517656273099730904536035221313410394477226329229233604404489684287871899394873046916142704378179457462388726751, 1145757147555179443254559112106205622476352801490388577993454423327592508087677397284417456818884248049565771618169281811294994570971752892675039747052616095566157155264183, 2051517816502604390671778275488404644168573562131740855290182868182853632176792492629738845860374175980866875816170161192468471169249372617078395779417060863502913231909],
  [337426849997223367841810538541524162414429323264579668046811700683963861676267972622799821370651040617201767163285213128276047347735533863683960905441470384997774473005163300532614, 181815145397204200291138779098554715644615323819582155192787984733899980934227627404749573491211859885721954186419706301312689983669161588285484365405425928808142849233217880629668, 56744182236956882671257225778564763543619627255724558017902691304857791150782835740612392033854731092909011802119558784857079814023628748283128793528843233481108144110553716059089, 7653376154111711186477167199562193031905136767785800866594385513607939758553687149187869688240090968494489585253760683719190102867662268833166902429584978985478063112815121423111, 439869376215200512991239006702906112571591427928320481760067973968141907439555376488638230594586123212073556268486215769838529910843200333084662848318800785915491521060740514574, 13134529013306198960557306203667237677969237063282265746683549270158677312681322020679700902429980838350970311055203139502265600329491012614978260406799967323485842170749863724, 186402791342100773095432004150747605775370019060493568516971124116453271415180757231840233487181641257377622501116217582763988427433547699689258385516244392665566740924736511, 1037921893961408016857941122911724866711919522929574977651786122689856724997725967107115061163680718263864337955131593628100982583876822519739352716958882237073109793249327, 1818197031071925324016291781818339286607923808935941826872654208394564100932063046150768823621890514415748048814300757530980589520506659479948383574885450498910103620303],
  [334908615036804734894658281980718654040285444276571132859552325304561321807308873515727397939524890906137060468756740173080120810028299582506636580267614342999383782387412163635288, 179207667807264347103336205739448812613371635984680206697267970023566719386012282471453857067118583174922541011272136029727372155678513754234092345205342917038223247299754921358910, 55262415263663026647084749081947924084260818301486538560130582999906803977248249018935600108524221446574922958701460585195697411114086308740699726741673883664840188211046525605800, 7336300702031869967391506413484294241313267012019657490773212536782015052708004922853998433814418281973806352922098920688038673327693671576856833704071954362577670681197652152641, 416507542614811761714949543408280792559130894835248053158927540982678730778049567492774597178870893834394693584958055033739008964828263796531519161974659632889465898047766228009, 12296688068459010323546307733175849138501553294677187135354135742928837705525521604812361605112910750540042434320118008485161579080414539034290195050335658351873367446742272298, 172041206853812100358741489105614780248185845336328350034933886358643865111759192010745252227838819894378736852249818539545878790124855525984669568508949658449888954226616893, 941017024230746832802042934371672422934780681330540824548360745756833507798301376580285644616767581224069092561333597864301439117815467167638633964502506741669343463335097, 1613066832242701246625542719116513134191398053782455166589641308785768619556220872613986285265030359046266167271728988941885058469790686944043163943963841270833259750109],
  [332410178112759654528905309192918110698196662957142689954609710541918076639254227327141741239987409241722384739662286356064565507652503244459366488197899667443295521760596101062022, 176639940564949377624168684232749190762044672125162770170784975034660947968442246127718092045669856403938908880308926570791340289398212355607117026178536437518405403860713249862367, 53822634238128653740695835691372812617465105721444777193546492167661940647593958396858650824034073071194026665659402410564178368254396822034870813506997936971876690244571300007470, 7034058663805561199166285673075699311155007941138075248187834581439654726247419605383416304598950017828985956988458786399582447920111802418855690224396455322860137675476934380992, 394569222564667911436537043687409801381262610796052792246502186937309855430560381908064522672576461530588150288384793821566270105656214037373895441634347941881589793292504939613, 11518718506693632037329694944687939087559881939622083666513902069217975357387973079522853979087825080752299841494067217115076831528032322334533117381874460050568755104830084576, 158892475821149013317439941805862657217173085115432392828796648222169096673652160122276250249734213364507293642528104979360730349081359783356573066854393578327775894204193146, 853854318962793752249306321504618207987319336048937715714862293327719963719990621997178750895870777516495418691348424881541365345718839972431042328374207834807181072574912, 1432520220351164577122155709189802448414582436386288322129660537034689606327599245020056980764592338961368193927223687719642455238333638985769071353570585661213140357845],
  [329931377741631821528859747388221380682129160447694977135188889801494875136299953530534119592750373453317577522405807697161901994704206787912330367777509049309898426560713561620882, 174111331008780502149742111555345317570214853444928758473215368192802704039990860123561935270327826644230350519200318186150541424853698004342149904506183885367501535875422442924703, 52423578234900386333926522643242631944731421034626813091121411325518207020166664809459887206115600330321811494846049752020999966442014350316839377335131943230275546398732519185702, 6745888288441827398187305914349782784191123079052035781189488459655034367266209844011088544397878849931441884414071301178647581180830911052733610755054299133499654028888699045598, 373956373697845423856382473448698586840363467504336028502571198679948114890030225359610099766773874452214217627352549332015459021114329684347245961084802756037916239053233296300, 10795869568074179311481249823260133405822349286108118629919408249552033114463014288035505577336956369637704360664411415742014796213973026217839898250967847800896832699244094198, 146844995114421435080386915869526261869130354358139215076045057879821189825620517942361968953154309764642920391346324349009931502548336866881735821744686600555620953499220886, 775383545256978398963191835069882242835009618781439133807865436944028309716135425131941984356835132337096197406842527543403193357248982932535288711746327669313884218115833, 1273437495270369302898298507150512173500544823181058892872410148638270203968053369080702011374785633230825531605372337677395126217792998658879133593425643864644251572406],
  [327472053793155903667573127277859875578763891584274594319512157178618486134516949574318918744192056720663819691083893324803774814555522287388454201345445473862833062551778896336905, 171621216868015039258166023927484789539417251798417714450922394807793131226039557227879859532988557111780496853323134347823552103701424500757675397869049566611045862212076478926904, 51064025833579084305352389992933851967139144880556002290473393989724473555113085937226708584416186000490798987724046645382004937806851311063071899629965688475983352177984553454476, 6471069814577737011807313222417454434870224541420148925056732369321490544380853967265550593135007324479365822391318659907972439490291697177208030034023008624232474898027481897497, 354578475874936835191952478596934443447752474999975190925399355301201970217582827570341995083521794426664503169438963057326837055674152649097838144249105374686930446946600807267, 10123805692560298960913033939763903299889285000183111569603001270192467599228332954490269467613039479273146286533538635261634021120054727897133668647760644086461427874919416522, 135798288509101984027865528252012924236828787415510719905431276890203648550862451764039937072615360111437188125352620165110459952084839677472489173284454190993852998893887593, 704675401551093943067843610141940584893105465206140892473009443373954564593502931582744246390917677354144892147409662373935054256116904016170607388927097271306791285286230, 1133116935845049553154531630488569059330908016429492271624284427409594076129223516473240813985342705114962478172643260006789845256435468215447615130966982795706806038539],
  [325032047478683567376965226410700085660653274618336521319008801540767525292425668846992493318228790324070663387387579590640318362598793751508564618659052798729328520780579984226438, 169168986087907687713791147521182283891958638856849455385456155133066085382522188209645474347133783322677970784686695622106920549780402663182653804614716769804238081891774402529300, 49742793841441163405126906557477001166503034008250182355778901124372931654844233278145770854798337458646973727622022738432000412710467282598983043085232996054883642118148223185482, 6208923027921454816188975827360856907853043056853036548519845796589000230788466505089693917977383156686331622361315854782907654121404685472982736840069715848630499846940628065144, 336351897232191992286390425026422982315810589986452594196476564295983552819662499272779253429063335872403969959159449835382693003296191553642448081616174646867317471408657272082, 9498566849264225342415486024509932499738036219569038116967485529359364411709229327117871928150636282639552372184240030008094404846073700984370840806335659611838876376541141468, 125661810938637231106561418224889775293368614146573598508717579352934705560105127747032130992888029870355837269200413665228456029749543161759514952623983586654627628509634462, 640906698395755234733023941268585267442197922413229873604865037064406448855417840421757249832619349620343891977476255509574426598212156333185391361475569754733911127480536, 1009215836378974265066604955454158687691065278223679419151904695669803335579810901832788369511467556989365703279486457185697755705957705252509259116456338703450872099783],
  [322611201339710090799754055831465406496171929549656455421948488508464377837963167343176680348361611562930094338081735380685427038685513767621832388512446826790978757546336875549757, 166754036657964596602252318258812722874554393612092424895524161893659817472349359713637926071574143799039177384553067168797426623661777836442395759232989088545691969163574276040292, 48458736058371530563395447803778278523031738390810390187277870615741479655640542099257172715733589967721917342151869672160852931288695156985192815518119937223687435269096539739215, 5958804966759348184321140996842848651773800314686150394502780054129020956553641951622257533260179126930233417455123349883939295720241115189125390144164286327626840925153112720770, 319199318139727000979281418046621911416137950161224586372328493474128157859161703860548031040759281889337584849095671869162987926149346697547031310644846140986611648414564681893, 8916532981657497849932430940086315497780846037384741685073364195317689425660258580199242616910535340714404309548840923832722411654848019813747853904952269225200375696826704753, 116353890587989519093283462462548414969067787534880442420021008078422030256389854963127793928862581896230045019329239028460319818029892311560024362563104146267999703094906514, 583347465242930148382670210963145655132759225578142341198614925447805223405849490117663664020357900626307500479093739050655494157509156926845243461002547550545766872245442, 899700278791670526035533632194332224242832291962237335502963403355853090078555104705573652021263381944841787611867681976941010679875899855180632346961877480916831206945],
  [320209359236500678805262996798527103787197844438834055416248984762083969219053659754991086438060939846890285251758958312248229494558899053555942338012405999528002087358920436851999, 164375776443138226399925183332983347390036352169387556278021609786598497510362169072990203348175967775297554434551121176692528020647661385256031598359151172788191094485150770888964, 47210742082679936409859341842209312373871376423853972013763330583947028609260826599687683326927236280457723799740628802067591551029941621506048228399503041237055881808125200503836, 5720107766260257197289183089128026400439880175545784175208950359140910020630300426585113352900360430700922845917856444910452360884443751460623995285578817735202099264496572743384, 303049207406214345705106692697143188470555677147829372491277675040961540685861084461033319306354923561555062399730212921608524032437701090806231819990881383957176360352855884449, 8374392107829131940024828009284397994396168673126176660360338039224031115445212517432954590070993088675674412328787300937819058212437397454054995695660911339865209273906391149, 107800791858781602745798959825951473883384335160726907345198809133140960921613219660624581589430383711761159076848903785184832185344049273246438194048821897802892342454982554, 531349718609621593266758057515886157898630275669706334913809488904340920638963294543727024054441137291430312680031940572274732839534135749064090148940242902338220129982493, 802802284428201425803532335421336450321107987061073789264198438238057410039936482411622004511678540102510398903105005195889001153802944028821310962680180785917018960948],
  [317826366336815602426603446343792621893672213266488180228482225396869974644341565816220023715630140446959525998311601473517840753429918169190644590935578220665472172120396836884741, 162033623017911908108247023493567805629820553920434858925589891442786155334545064359882443780358914358932257367743476921806779374612363945266197560107070632030004148468702131547684, 45997736156421484334375372455663270594812967310333036193562754980721179967823046453088576340026548580378853480358747341443783102949850276188090790240421083809378149591063812164571, 5492256632904800293823434884029786351446975673036246565976286464179801020648443086385056011234922372476353064443919712458634511709240558176932444385606453454575767637408909827381, 287835345652975092380649121541959414768017105519891954949774343964373710761715848980664035513865809919265937683122750812954032928462509373355978390257526492407421866319149152984, 7869111670293138557616519267458916152633818279854903089468443174754051819604185259482300806477213959672656282291210325119841830126783800715449153157684612099486682925057483437, 99935884458751297192690987252997544612765629907219925597571514591029329533185122626482714111731303465740806273114012151639088151901593839652124727935353371469175728476338305, 484337665305722325980950612872931983240825699529882996036720425209783884229146555382536831150144109558922692231756529448383016360926690238747421294028927449573416151696558, 716983209560009753136866875360019921147725296020213441480482537815849582175391081732007174303889814676641672528122754817660664845113843789299812843598129947130084739646],
  [315462069104733292981501378556775018858053556535093008950477782197573906367660434016235332799672399706302866398041512643345029387717103515662312143887368544748692604664123775599143, 159727003503223905775878906104716808542503724307635063597364777701060422644772827020191520017110554661087492726286730447630838883534309551843043460675809352602126674531037795884987, 44818676048889276863997094304388736384370027601567177735391957009995359422134227809720374827542101672180958557218592307348259703027490051742630270456598231066680705943809834908573, 5274707940923387316978790198563835168166487992884123764661726640955583730027100975043642701122117345374104671470596803599611900847943961761508578397703278645788628978145907387719, 273496391303203831013629400094417332455875155276040298816848922340818248564924900290545674313685746146717974819554581160697652822184695366334180721750556233568281761081715622502, 7397912778128526339898046297303948027443379348524483325593790314704879962113042516416659803877975303734027733287071170598284632925046611899226960369729265080339781195138614775, 92698905781805627241676742876165939416189937973443624097218258012657260996797339386086288514742098224966878780196820074314400541420796637519855878111074098772177969849187018, 441799146908006690557152788538510227441177205745787995649578586574216669722943072113865856024313756483948899332725709437249186079254526188870923155944494692773652378360681, 640902431413354485787670404579839341856600754186582034062247573948513847181914937668142250691670157071634262727499320465537208805698246086998150677468705229253692460566],
  [313116315289570528873788510222015711591272348419302867309779613446416615949992921699320601563075465511444364287064103220421088641851921525744957214329060429791907299305180736016697, 157455354406181669980456591941815633347018532785386894365470053493571752505822190736546239235848575340402852805046765879634783458717073580773617834505471436223890379426510097075756, 43672551976992783455953648108453756193266136325669240705400999609305317491364351425427866674489374756704439788145162451884537029946879410863278825553505350869749983485655465562104, 5066947443146060173097372721075877580593399316429784637765988483246336100834739423484159049672614238321554744146343166351853340376734754942030328766726695653639545550260529773783, 259975485098365110090519810801675649223086125266958078840046002745589991831300267041532446393195065575340664886856265349205381931814803957575333637036971370799078783475898821227, 6958247026379713457745015460501391376200842114098378914792901449168232607934193749109610088624496906180626872881322778726616069990271634163176490556095764273885863758391054357, 86035305395453415675199392403477146390830116962042637956197952498687358845892437842926653482155393502175364131792337289462409188998453545222864385076782323907019162574626866, 403278159251506275055995094862164858135659982915249305526368076049008575795024737523506868441199536268233210006530857408647617651019584415599873722872189537515632655707408, 573390523672333778041804049818580071138400748484445118386353013373421880245073918306432046553029850128712718143215068125526037314475460511464581697663719008427200447701],
  [310788953914898860737946005883228392734032707505027498052076819715742634578570970109509717771023399585869861284569291441662429218825721140119956983190492743573358510364564188865371, 155218121462517836432013410880847121241077517934778906123508965925478224330628131368881520957776405188771638864025008949904495003199734392370032075198149436461996702956909772684176, 42558385561279536391929882186712623249908816708824580468033224424853578022358603436722778316770338408225975127437428364270830985194078534668306296499036742089179408799493238204117, 4868488589152794818155681533436430328584434792103453754865686512808843318967954981942237825598615931725551325956008443749065121246504290075773829217997140690329020232556063998294, 247219889469962715256100330792084830304889416842285588250160095911216358994571159061961479674486983625035132993690849094197984359222220576222279530713767736074115486789468158524, 6547775614479830046992686439764297300259803608426599129246140816995066267518574724324440808340528222775735433676063288400077271638307947604759587479608967549062961628763322805, 79895661877987303573999016049263427668668057317599810325382661722604819115493432833236816863985474765756617201682047025181154699868765803736522423984733536741529516538878449, 368368304171001964836421050226435002719762112774976662392128679317495697009528634467132803784387264513337056870414749442112257266972866651784648050905606884889124482349791, 513426247190259277108983176718644578945814998706717476422489463176743690989132672930781620707701129488634887946669919917434550975829875990869578891297461871506564952422],
  [308479835267656428185697846183336410392807820207198592994023543107884600702733341947093138018203239099343607098146437671365667210872378239420665010179726594827918206728139261342336, 153014759481740375072240687648795418156128244300653158072510879268436920526348456336685387307291213635452992818932895851111846208363721941257321287733933004099821779994490498383834, 41475228816400258662544474981120190249157256017986394389329480728993328245173101956579388831217403603330724870914809019758114113427557817908364116853169818303829416898293455825826, 4678870944066731002643915828107485290792970130014031169481150390415871737064510479323025131556083697160040194464007400902107230406279307012565374362499142384849574663748418278908, 235180659466517214423452258018431467633139689208439005470673236460022740322332150989279616796916385775373990010332944185594282222588499233937033980861336753507475721190952319991, 6164350517695072633682688039140009755655725174880300512629188596588233485536225686909574049499537746827459853361450228897490762688927047837485118784758006272094097538559827591, 74235163480839301637032140493870291892503922531899430676576536068676696914435808421116997780522441679481741663088436511737171214033390243187246209268857063649948127199559929, 336707050706521123553465795561463124850530014561761916875936126716239961613773244653037384087817985771488202209185871355183589778486431677645791322735899661355419129599130, 460116787495960209573227443052724915349157064837863326653055413556173258317266798474806978455267582550967000296129045318623678467322553815469602417818679499109014462554],
  [306188810887354328942123391258717296455860872997654098117007089338053859835156569811364700176529062929185110728326618158685858378783737904260053477514402904107187265385548195737764, 150844732194930131152713179611834914935067370155384161951742424177575565203632689832896582931699494909651245908651396048023252070021356786638375157562510557634247040446980036234157, 40422163174858552952826019247940001265276869855019741821700952559687490268826062701403068412433375975572825343514959815774637182153449736048642559561844770622936372652806632156818, 4497658701757050432084877769646334467622781352663729391395197735221888556242198588283373050232786034918069445335353797282314804140662220616595027361974443558613784273354995182426, 223812342267658870624608736858639463054064837054510212753317551059319855408779361165229044721598881707135802753937869889531513326876334805156252306776567018336918483074962634637, 5805997493835542911335248842698124135158685353045284014690859650833613998443316226116002930921944846942281606186098229960679700173133152990808394204663942280680745856381340844, 69013145159505802236794596795324945324952570994341022257054768775558859467271016298123618478197944571488722581781993581982751725845920446102339829773615002634860562018121326, 307970700028803515432303874014346522099489891424693297723548582592613667855922359054656790246472017801154978332134160728517835100380799238562680170672802240990968727183675, 412680759199305275272111526112565344127899270914510139369984775342123214913088622769241864390191732296071851797961781852499867583888713113020877496062483335355700844993],
  [303915733555376708619709926032589714549741528984927830343886254328283409672137208335974908507143452796414221930122511535084938997704881335716761014796109675735598870339799749757237, 148707512105139821051224762100659609350697238114457274321302996074127315280242600955130400351765933374559758652141590632350531577329662063290855944249168734089038447719442106264542, 39398298542925885594846654030082189531875369624824235468292221301198836758912859691158167703030300364257826118573049969180501978500687040987579635117499495398132765375834524141849, 4324439286614860587836685634216118072142910942047421957056829062356543651126666540167689409548721182163787502583799209212917229602333763287049599258357847025812225818063500815909, 213072702614145185926595937353110770752825331127325424494801759325269132926713792142080787073847653226195037579113057057339941243166433706020588221262700861788804384033067125305, 5470900732261524433705042529907235688918304414634011453667029959994433426421942328087699235115530134183223285515852027779820650625147615145895693512792970254033222791711203464, 64192675442664496096875166668166258612758695249664630665551533801127803708847860122618302513056205125813357660418838006865345148926229338735245285746164463529945633975255224, 281869962896906127022537649067265530010114468590020822676550429847614817749131251507225861220819389937371300610794693389475951656048137695598223287781196088968867783119830, 370433571538653814103401916072691404925272446377533740796612159075836196825730095794908390580221929457044849981424084915905092328143152781432733526974805922627296654418],
  [301660457284373746772806107533889338455268220771435943974256912615965454213740125011917591469891514928849693966072701287845033557765166125203520229941711708333579799249471386627837, 146602580340349352293762902505003125338552238612444389142518485994701392053918524412847376958138136509896890705139275182848309449081028322128327757372536979624785181478472859161490, 38402772387640833339025648243323344064188903345576475051809023513150613071820403797110240047814710941615584163782967618878440762429622273636832072881822680184096608078741367974461, 4158822038436289437252135701315458738402835889244365072019587117728295789871649599266796406798354078579577906295054517250567291949719924590635047439152649283573576474335937944195, 202922471748232686923874439741661185559098327235503549371524096554910157494371471176275210363413901922327505032995108881386704711444806358294319665144919954389364928468155916030, 5157388973985499863957877324189952007429403241632950736499117969006635707911050028519420318733904464142915900349421227124920317449221947858901183831805683948789799083060841965, 59740187413450487605592189216615553001867776179008847481076712650650645196708619341250873236389348513714157510027888065807830016441591376198346565452817083246558403502483185, 258146070910576433626993562793192893557819741467690956413800294522266829080067241955233289939732647441474226823248900607336270153483854007912150137473908389828931134598708, 332774811504083154025558610796145331282524860144413315379545405616498699998668294639956599458978085812680619828482358666223073937995538012461588360742212119429125748150],
  [299422837307746722202670730811914607583108194578710620546774093902178533791452401181847047433460824282163808582174837906940137469195213591968922433458046510363297729941043707403490, 144529426508933129650930390638133867351759203943581495216998322335992224884447933162884372880483549035415791456344597714220594379939716701018879073720318168096183807135525747063041, 37434748853848471953618871325814721858804591216032430738667857948670222543728835572218686338036246549952426833128453478033990797055710994929779682302982771484005127150069573248142, 4000436975293761826942965941524134593212433217415028617115394926932138299577146831487940903825389566976908688337448242821231132024927536214851018209609929947463848648283545990210, 193325117696613438201328617614975611037205797873169209648151288295727752541623422537809582506619386556126510325822545911641025109131488774489870351121075550463368970833900882868, 4863922950818623238495311014311046085396114191087085761485070782436048928853132332686184585198382550909182174093724777086570492005315444997123088895820799388050186690814471787, 55625148776255731857718302785701543677572074349770342202085518111837390263991377796565218851668611175915816645936366505238833276264759757313500123582187111063307074626545993, 236567353484066694055102881747655843688619144431021753939101737190911513336298281648387028913495756006508241396550237819637854150394047477530240159205295228646842694120992, 299177353218584079652968589613664108443124989485494801252776981533899856153792507048683410949110126915566673221701429072321150875087245466642089218140508096342889304758],
  [297202730069224347745337079465062289443347043651142273879945394889843594544088331575697070362819758597212798199474359785452022683670139048859412201025789179070526257487926608018754, 142487548557595787527638459625962931084652421224885491699813711469138010322222688581655822754491665826173021677025772907786041633787506341921068318137449253553428542180662865005363, 36493417910271420243698135619369526314051959851852282682024843856463157532082525692009234408616742433149579332849480777843994220276506160365776137583471402534585695316119574443972, 3848933629600703178010558360957594088697335221964360542542481279801572063398569663686440403969749686055030640215608883195102440348979589714110393399678175623850478907008997615013, 184246634941117715715977113873133714531479718509514542476237962359389262069324114160424898389834555070238682900402556839644816031891341629609468367832061766291297917539253813306, 4589084008371808655607077030591192237247175798859416536458754117201161430801687763598672383536062551019315721777550584508948471197644562228583558576151035271416153315135478946, 51819766591321991138000999589942679354111830328692687644852764804621100103185582525627731217524338845930051673676876355002833095088066909093550176725094696605774065158150939, 216926221614374316891115435808033919355749565858198735145091729461292898657095319919383575889740487090995607068992284511358007606833190268876072407094553485369492081880376, 269177946219939104203938190866466778223913440500686396281436232768073826275695840918637084344896662242572254181793049102961866756008044946986548969219352606659205453137],
  [294999993212529571971424874081436904768094298928471410576414579448878381920168045078884234869167553622810562927027010677274695548041877586642047742282001074775044722386545691885110, 140476452631733553414878994027867212258744210806806239290138076029323279703093084415915577830043442321273488081881752026300854615847946131551227721108951593832274331211900634099915, 35577994523638455706231661093821328467833366645393704362311215176577176902979913093937939304429554066080736616963558217128513238642963371259536624325151315315961296859232608866157, 3703979952878185140508443416913016445043313964657989656908528300342803537614168665393501968454379066230601472629422250850702092969932834517168409956079780555728622769736931953109, 175655351713288224330955477248995855193829038959415743779608244885765499384747664752519790494976920969986131106807923983532189610213350911383209450643421691426131758906965066788, 4331563792586478566124518136963922126016276306707022666020068210444049184660973441927143891541501322375797817558111299838381833016949641969029342745535548551167299092970380362, 48298722790173827788920497237407539966024274596627392163644777509162883214568525225770841063613066716320788345273572602146222798110013446632187327240961898464473554875287611, 199036507371897965035630632069579526667354260059152053453594719574246357507248070119148776383719145002631571371989132048086059945931796880484523972632345304698618396880527, 242369072327376061770349686145958909764295221785405427279929754791974716122560479233984439300775999593863124288339267943303625720243645722931603330047084130598380883511],
  [292814485571136052359417626438495310624201253876323587668430688289725353354250384721747789057876876914492637408382846306423067000145238604869573156424562285196718354993892753242680, 138495652938179198169043628338860074950977400817122232813724304106346611963652665831475935521636243083572678366008404611616131787007339145988092620271862367006214312680508008461416, 34687717859929831753012886670396058790989197688204475180025338590327347220128328106327199988869150331501622757567477188831489856365016766918887379031310032119136090822759597981613, 3565261285015676584117759687278194548675333846260054709635520078796908462973627538858513907230513290298605876807140253789739209010976218773955911622019577447526205170812570231087, 167521753320145162091689861873669060351928558596622546899015352035323323905024434401673806961652374208447802881915057706756218462570284790464007266186454457803208870808448103552, 4090154892589680787489891775829226426584151482283404333843315888303618469648459206993234336493442360725792316508325365420813151780138026125251692893660363343633445278943400144, 45038937048168475461708165912191394672963928552273940713846982164001789802822529533452365698918530885266417313064383520016686675001185171342059805777979465938696554998195445, 182731114796292831615326904123637121231407106731564542189680428485173833523980373634463663289298904158212841987128613559991538993437441905982834605150034038548669054978008, 218391892033094877747315522188317734533946227698996800626286549841273341441557462825147993600291109583277497823955817814491228751556900178092854218182764673071413634704],
  [290646067158113511572365852861658257561446626679637395169583581946515377879058355456708328119513513492341035162428633911401528544515152566199884363714920690473516780365182959950805, 136544671610289266569861267500310694560282191062752060725417800723005085153964430138003352821541709729633257692007636994594066457808413618950314059044857900682616958515621195409926, 33821850511830492766934349168881003926222319765455220269894906041604598886275498973893970061227419664919083819284319413829333177776857285498330314490855655779025813842712659089333, 3432479384083384432311304246277993409304200066944164348193401328016666170500615087436977242142032395783179458659211917889114967775623280029850559004032236745572897908044632082994, 159818320062112040125309821373477177737763809274105947719904927975340197762266304610344187736074249340861164059129342548693899974431994195859101772083337336445857759735310406331, 3863742344260573304596005845862910058158340429961028843524329716628887768195517476867115151182400576564210797496872402078658347555449135355694843415072732415383039339989556179, 42019353995198485669062996591483507764232096107042721982548724724612547640101785473011552608724668132614774176140878496758821318917067930554364736961507313641153384381117057, 167859943696414005534723658334361813287357079559548051130187664049948244684039761466507748339031266921657880417124538440888967482604357431816767507241935275621894036029133, 196930127770096654687075029238143677338295412988833295145592524783695630363343810785129954936175488493449086298998563865033713228026041028444206600431904735454780653086],
  [288494599156061195473053603087017900494558967334709984850219866737703110555510539437885250752194842031253994935305773765782263400103067302180529900768463863139582731137978462327398, 134623038575333006220478864439157006530327306809690640768775896074996976325039816863394250736053596123526921698697924898853349718162202708534456644692343175889984146549196269622636, 32979677751513342274628243616467589984981975455265759621958642904224365478253264970084697380530984645233127669922381071671027527726794064626431011643553405067899475887117380900044, 3305351513001868662631005170500548429301156975737374589524591905303803898600854629720770696638351469472946896231602600568714036456275780524444281350039479653381590009574414381853, 152519378442047400363454200256290682970514033909118064833127498375575235954581370130617464149029360770687586256389319953606003608437025384113463284838196524069687776675424858173, 3651295909149234155706256099836678916410501738697826406487440035636038667694997338137774401767320040898923424224488301636962130043281871551954945231685158401167900938709953164, 39220752099662347463462354565961385384474123506980869434910438082789345324758414350579537406797466051941030273279886338084744720650487307573835391147690290441091932285846481, 154288052867378410720003798557634322602987747913502067051690951623365145170388805898667080420570622205501860190293647541987742538748335015636310009201271720555401167531306, 177704753756139903921206534347563024011625203158698556491673691382782176404928537203349499949876319104260289505223490788259648716465755231164860116384626928140785377306],
  [286359943907128658454949379250320608554599601419761541544586568670259170825387005568279465049869176580926646804299616042013039609700088228545583690930675708285357338568987417632483, 132730291424143124626136976788902496924440154235928741848803736124525921204579246176816315831032062427979470699629396812416185567211296165862513779261062982734655699497742557359860, 32160506807904609873309296943436039950197885061379693140628694869852471389773200868045114777301745954779015056405262204020408474264510669014943914972154225541799372845075062016957, 3183609579606819969572543210395748722975942144216743676237895124791056209687061341288851160434917945916401067177769792259484517496076578939039939504066284931474078533001205451262, 145600964488304284402409838667427689114592743037552275765754976104457899984254151011061429626257441052097278113242304046511244556578695075083212389197806610372523989758775649507, 3451863052468645584390333760340397479295365991860281877138045935144344435862203222342477354258846132577800276054568354322260949895991086563322125205971748038113447014593439143, 36625571870916582198214483235067876050582913083370627700002896163769407814471263339165724880037762636327993061566107909553752077451015042686162575089791337590913865875088682, 141894033565852484852428297956153978233481064589800262557250479250181240573411067151602417080886163603715974953995076965588015879017128520793396168612478680807104826361070, 160469381049757107927406391916134026645233302497339791131823974265589599988966093769927663486642687736478089304231852598823251214827107643740852904130372862771147901129],
  [284241964903123108546319810270999158527991468784390607432304975703616441076496921038476942573501932232433010738516270192108273144678394591667987004986627402919617994178725879274422, 130865975282989203450710902659373184393428780467635732373004190714233968493179278194503851728361317241414545744351379173213351823015629848622731464033526413829497664454274797271873, 31363666167612221533741453488937863825265178319294371271150542503698661397389520092654549490005647725627660531012771625411138791963066261057719451119316515251878395732972865053933, 3066999326864147644714755730603365903295249579179952612802149814222873912627146523876977103736866679622902719394930848829651166118999809311474399126887777855997520771551505881489, 139040698126207652040753548565651872936399594440908108821216189397432382215547276038031442535153569056292205522966441539605635354685502261896901982330504590426726913970580667155, 3264562551929440917003602416609096424430172319079178893560019892891041135228152756797961400377909393863819810702520734894315516983144970339313081524071557548555244716864175339, 34217761297306978904905940022658509713598649237443710812242107254940580139530014756113545093515091907541266765190239804617469820216486929643842512147874121240092419546549241, 130568567825068298016598526475523541904271056285608800318915239647915095478265002568547446760225203658481688756951443848553339591650398566029346974160672728226381277282438, 145006242520451620861084132403388594604223552729928678555914791520770612044784682639689152671673202274245502132320534654629611546370612605983838804009458713741513121792],
  [282140526775702551563277313899351794306434281667564183050612162738009455192610688730796707379224844789868842824986293365818376315598808567945550383715417036879819076974017462385979, 129029642687635285728390800475631103138729262150951288182215617237495439659542946840553094230559744741848244411509884644608908624558748488538545601626291701073892818215461219068548, 30588504898725941493385543399118972944684302017725737246816350458782919226163728258845316019902398262539034226121530529812471691173086377578292045209418385829521244702720777634798, 2955279570193819629658446707699603222631855277329271126195858820199969066900431214533804247816524028642810329682499792023852688671772060587502142741250536875853006600683510484627, 132817667632624884981772245629084010395381482249087418949511113470551980509299365490307000289398893605351886264077090807001325812018354697552992206546375677472220235516898783311, 3088578676329080165852933935063727627171161209939089734682326404183713983488370392771678645368671116935463719483990227869635677676208136291705316176284510992839660138526260424, 31982636675517682659596309287621497005921497620021284913215768570350967884388243035845633599265042252611802821386260995617780431776147863602080538521777329925748509841605252, 120213149427415767614461323857115552835447937956716254841410750194211604150582887287159745468625076827119665923786584010471687042472192525775893178136266904146940312384794, 131122696084240475653578128354166880774344865110053428822050349061487359182723618137508262426114794917778035848729807938924292609006494602880765841230358615558015927785],
  [280055495286653980344818219814645148321573311630597187320906663539578381648798621093175485902527781817821933031347616020044445644257377517706493058900468095447925580437333304971572, 127220853459543826422197142090053231253247747226162286312605445704076725514958874815293504664723279179873333018857411924135005743776038278016492581263265354646290706335320088326694, 29834391996724956866143481321681221662818352258233195575039738087377666811854562736832822268160886702458244222405976608369794563922141149032007561535672174681092455240980907523880, 2848221479051141565651132086572026063048807339620183302925407728328440465377097070991307300137286633945747616730325082699546188046442862248044491838934978216944259279496982266609, 126912323298584748767230705568968058407931251464030929353531051802186812569139639698740473412261064633639165735548462944572366096657316511743434580763998720495850683791515754004, 2923155879151110321745278884628917281990570711841642542205130372204258918770050272106002060002260954312543054594256747957685676003801786481963742378545501872935289095408819544, 29906757196665239115465227737605715783952110248627694229161042378296350289663703563336396461909697608429320370780522697637322840570367860452748889947671657612419255553958675, 110738948155938908228632700312175993889025531316929965240681577285643605167200753011823937218607979395147965262277664413668125359439983397434051654617825027742199012788387, 118648176166160211599881739075780300876333529871049429777024387453996257890420972810264238263934078327692005564891662092193997843410692884743865451992131215279827617496],
  [277986737318255861799637180788748960525906191095359720884163156323672868337830843667187292800312399356248086802490793586679852724073394258593424963247374926796442173177631777186607, 125439174584188859389127803683152642687544807773443378042839243833532568441530384533906224317246381981243772305717595776580783777348613087550492860814780655984498472323206168057180, 29100715751754551818198659673421167766123868440468946312394396149143908943159541658029094599764241154420214618257318856924148568875535107833815241889969753776114582661879231454317, 2745607900092211200316276291358957342601360059682163157149678635760756345641758567068580307024374311097991468072809108666250904341217804649641905626391415483171096206553110702113, 121306379506224897430731036042848994703946243974769075641299930273048960137937923204526566185099729028531856141416661756889105542331256241067612925396381784371240210254355173151, 2767593958070873702551354471494109832096236205423245444339109891956372900929451439680005024522031137292892918007205877219729753665776211160657182535205720333740553467218853233, 27977811839008121312778948641244988518834916007877131176635508788171885547009717253887322848238987231098807517636616476262666411642012787235517718127640823800449797442961494, 102065800377353226704893794319336324345817292639881506588645311921004110734169305585625439381043953519141721947427726462082111201883397280804612974030080988370976666134468, 107431533240151533786462581449525403238638496992660026017249953456307745254404362468938285789438892939178877526624568435167843784323348048016352541001237562239259738421],
  [275934120863724181131223890159075988149865585480267321972439896253845067765864113695733285302900575450806859957855654879001831209758559117049217580795558244190944682940224125290951, 123684180091441884746858447242422505280992429769483664692367174897247711260385324402734162128983059202633964784243173625885060323332648612089504563754305088795029372088668592632516, 28386883136558599005425721557410254028351558026993665438679658389096333495079073275749319114954126535406192563603558313626601208315577705427382486348656234190999331464527638813473, 2647232719416936102992260667451237819033385869164888179083351772367503536573598380820454757614480206820736557827874361870862581794228985979178869916907228975313748393032523772319, 115982724499651574632654866214968905979707749179421493838120258357717058267059871759967810885091779454219436525292950171844608767452383560373616515440183085462160511327907740509, 2621243636284331198875015851189099087505481265082432834121287449549165650985286637613430481816262982193536679073899806219421895420316676254926201584882379982282272516772172727, 26184517279548715557377025423122159189485837684534285627211631682142370272981903171232991110132669962183609828536351293613198907387358097084253807215406479942652582010857746, 94121311120080513327220944423911976116611477700596344522903420150664612015560267807478028501620838248434082204221518139146396080064131639306837063480840668442466672121298, 97338709729621491838023398462649476532210288801665936808983950664945400859975817986012947014325757070056086498977997476729065026798336309399796051372603302234626903401],
  [273897515017741309185000910393383624262806904446516731838554823742371496215069398892734648080484364917712563564306205920307917768881134642808248826248760959568819059086759363896117, 121955450937994620048579416714365455150086479834531264057008606718105344876618048552803045403638480007340301170338063388962415184696894787395197273135467807675925964288759231986876, 27692319214378813112313523226998351780981782488448886971128912029218479966536558052177042883582265708178224901262961118746122096764809116348524480036689352399618802613278440802563, 2552900261539000686625417645561999775585457922960557945962264557588659621980378622422862142721793119495361964421975488786422491207322961968033109400075336988127791605413173311703, 110925337195410204114389804724612430987966997508185976508949863655474727946266706444009540259777744011056915072167958271208084816218044719820402665461830281742944776525125785347, 2483502526049102381631912379936222425729409290806690987890076607366091743886074894875517967014214005056153351120734640559782379746875547120223468559144408257408206462998157120, 24516525679953205354387527240484496097563501319795060708966733209893974059587666849080419342256821855171414988867758467002482759385799180240111648021611962143038394199246416, 86840054645514904973284391417300394072680324472120526096548040669171892405175140358358201428968294931900763498780956021069461500608636046944839114790351467253033035127509, 88250707752064311844985889868180932592567341333989090922645326224319021530184553303660129011059064508434992232630005458144963971103204139018473401480049584749847624968],
  [271876789967066965379583634998103251408983596526908357591257729135471838531966965300715223848708613019349711781689089828241677588825125465505090321085220478571124708145871652630317, 120252574891783386766492897316438457267958071526606292831396032281108402369347707250496500229977203279542301973471131534408927304038858348991027922504389861441011740277342723098893, 27016466566155094854656448402439258604323577137696034412796026270136096729880918547890631340405541458712522291660669349431484086067428909471919669333700446437669253954165339745863, 2462424722878208019359270603367978549470087794556534369348898611979272075366488678849204631713033626332898885860524717066043356410414418881286017001322172005446815876545266515471, 106119210437934406799638827609673683461512329480284310286939475141927054710313196695241558906731617986306306945140900960886115637950475221219583728186156038995662471575022398516, 2353811438814945939241104597083011729683039868702963382843963024074824221900976968307091451932370555872702847247770123144916906558723467013194659052428686506388066310093494814, 22964341328515452192853785141046145292470791442432945417768205969400402652793012306285875063887692083563619380072288802877867246325787928117356335616546729529474243691540278, 80162862107149494988799963064639936714587084296446728935950803628898974010910778819648722379074348881236033140862396924226937762974164308039784851473699752545297543792319, 80061810345990071476197533274723663350914941224350567360810351824744374287862612877939437949991481370750993031997415639262710600777332334039202490287602475964942769619],
  [269871816981230555144167012992036952850367339216612645499961923950528079509829557766225698027636561108672897178520764712790982877568887431936651947314143987877573057908877565343726, 118575146418380520562756381163381928534811375308799754214504736226443358192839488259649179232761972449957619207789004869498389213521595877633216757753556711750368936707541373209301, 26358784736383872730354775893653447711196039864427668305541166313677054407521671116935550397844496620606571971393648906495678412995969801324395553455682442541055882709230917620388, 2375629637707351724056266432905621997526048475959488165154232172185140419457119573970139235293092889642926101246786742775097355205226350418483983985846684148340364651135472610385, 101550280159225847759293079230244818163498571506021910931607114270196956832917348504213446829068492102091941750660926492537986023441964527967495290101903082578650793759105910601, 2231651009880459150431879223957489697540879796298497156504048239392417274658517102083900502339907554790473409055574454408573525281872531430719609253618644061865787404411087393, 21519245231436584306228417196304229867552496992071208563806983006937499902266002976829115874370429494017238827937923219231089877726095874007296826888662136891765725254139098, 74036186282738613538552538627293241097832554729629877565260477644282735163800688288033681599652237823389719551343258494344596139022012252818250907570001342115872658322620, 72678023085990491844402904100400237123436070909939995137853092488579853944749448773840875124375252091195219372036701363843404365601114261913511383925661425420227189380],
  [267882468403304167186095787599540190562124845044720616206012795482700848372084930890711034066360399790919870919711671499931400864257790416473521412119378932981467796105988403823489, 116922766569318799887652399623578307641340265751253816416817700082924143260963759013569693651661972925764899072080815347469642237267533893291348747732832410468076391290743923534048, 25718749697013152126515378302459363556309359984697470077792933396360722481391628382213308256983308395301852189346872362115401976038574691817457745239139527489622800251046928929604, 2292347374613799306709704304104473253194412864647427702207545392805506776087834155792132242716799342800850274797985309517192432092061095849238523272439811290371625267871242637758, 97205359950709277657207312154332640146566427278348833640399533416532232608640382782905165109813590513905230659586115730013265148792262277229962723378407574292614040067799494123, 2116538608692716224177205998651301959769907032632040481974293009721097192397051037351036774505629187900602905824808426417246353052843180451144958381816878359122803105692788615, 20173226845301769735142191602433706812816349076101376355794701747872773604066154598595719811011647529372589453318122807563422115784231575717349557171369327721788414643846294, 68411534577164846986822617035337349516277765262411131866946921563673316454020597768795891748458492364005563679273240415578224626594109142338361890759849541751783455716286, 66015707505195206573730986449388348304049066598987693769254547453649262244282251451483133178928227121853000533400429282737139269567440840280438246218004331731624148398],
  [265908617640755522257377976390496370844348528708412443854696169564090979739418431742325914501346014237015658990616491747261300514778056289368926231081884385575716049898477086726596, 115295042872315482783332638902523934914639035514011075914576181406202949516797700600938025364035892273101812299785419155422447796567108793136298902908442039583654091914494533800606, 25095853328774034134838837908868812513149966847372502625054710393684588409781285505486461617864927860791389654734624690939544162982754731182282918016411831493312168089074924135019, 2212418661655856317512140315006444394164913058100204820749279821731256127534020813543262483229676532785150812977156319258164861131002643957398565145686167446197161584051052117981, 93072080599234061761127715260975694847827295804225465717319859205003927480838791681180221831051793810437363417299815228655522121568833304896031875931047471697436783592154896331, 2008025508749923421122974326044685982151038563813038748592294610133228157466150681641860116462707594325959751253827814943458122650481179076378775780995282571203050500919357736, 18918922229892741358041251319921402151186209036639347702670996466280363951991081489654912603484305735342899837658110471900320909816850432382631224765612050127566155850214804, 63244962552009704080839565235430874774904492580105759153670827687852294026701950351718649710551450305434608053327817121936306559702515585916067004996265425351539983778134, 60000381616015964195471076049289193295718800891823631862237250374949421892267779941718864782991086149884474000775320180547056559408216317670331400311690340560985269679],
  [263950139156380171376772741693848483400186535967060407253109362136047375517359439832236047221916204579055603316806927289431959704330219151077956081196096218819732582076406281003462, 113691589223363126578966864779780941596057605777485487658119645826553688318969628283751735747790780322058224748716892445092747045651235718127947891244134286932436506907331625280598, 24489602919368795660227956516315324053882045301542175983201906941687797231212442049386546724889036604616046224926442010758785094212625060127409069041579076750418607059140030794668, 2135692138506259210308377961192269079765196204719121584836607932065374422724694279845890372352801526473269181484813258716822238851350266827940678940563600819164557532949625414956, 89138834179027078376775933115954913518008616957089625762490031665010793001395234308988099196572376493858849234810744250827553532130648619907681009270804137496960807540568861747, 1905694293611809725619898250393457031178976057841444151777911267303788224376254599969223282705064301997218318104257448448776567548928259318853187640313888404884601338436558377, 17749557977758343125541259019123030899320297717377602730233230403843566377718378334394609207129463896722417400368323017378500355912183516269833691353498162184830395584159358, 58496621162529770287729943002609834076465229018652512457875086775692733083232034577362598529496711173447910688366465677635057242820327745650489818784792650546052266539549, 54565666144917439742827412962857291999467118172840839131984147680116387101878896928831169844727285620798842011808648886408672043212816849839327534681006640915471269394],
  [262006908459312247695636559407473592726412740102238879768259985178665624242076005840321388381931559782190170105166508294761606495934516568932659200164337628774953262827915274539147, 112112025780654939627424117804989028476410081645703810146098409266903478041496454666638413256154050121808105876997712174249198575238895257921903728177390667525943801951589334304255, 23899520677955253283496014613291678005571438258274624552813672576581151266345982931150386557321452928711145451575161912031103437277347792566100551160730862625260077091542197675916, 2062023933980307102033771471504410094784006100533823861901310727930562600110741087829873847993165131131212493441896482181927942469245635274627534181909132841639174885675381899492, 85394722327463850140197241287997646664678761815236871989875934287542552732040652844403521159433642554504696304469496905788736482998961501632258959890164229658212224060936129792, 1809156477801750346324950953778590466347727158492294145911619358694673708909943371484065987309548267274408548742995917902416154508221497660655945065113979669782125984433617887, 16658900345478630271359439948870095623224092311333154451542696730016751743594284309785792789048144458304618883255084565859895924772236756584575546113712005347470814417173106, 54130351691493158707586389823444809647388958862912024272820483347260666049059677057938816081001931024842098514096985214565221276512332639874389685448434395888509535476591, 49652357955364517854384906547930347424460809917797882240758150424806894501729969833961753696190252675203396418886813683486605617553873246423735345801438939274133555890],
  [260078802096113082371453924547231814938663115897734734968038365419656560874526229869429313590870315600965630742130170399031937062246032637149989425908195128902009039656142016174759, 110555978860312978539248840427398182837514452327938606274326914830442251156118897298658442714931760562997840810219384817205094197556030558512309807674495614546886334650522671544431, 23325143265386090128864014422360059801662537964805756658640590757188086484929330375349763102537802117354809361345589870340557672077109467475688131691226117861755832637944646469020, 1991277267444649752798909572767665439140172913914391582351539679013133305953516164028034227405873111926847024013766922902639278696864557241829783624139226148313411208202869242066, 81829508365192423875504014475130036738818420203017853256143165938015565515570308294167065231044201924734274107739876820699021489240751516743228272494921450679588029662764880267, 1718050323427947556420355545171866179646236260168956448596672652828366031655774905133200288092675005525221434892737539513577892859485387501595154641202566265709447490653509003, 15641209072351158924636989463364976530775180652564151234923268027064624216761095431415338654625874442801712764728421819421858718613582985722927344300366824313763972651620781, 50113323077366358429607435449182360350043358545013115111038933101867775949546303197588810797043091937351034057297434789615281160542652252072389272500828000930131652260967, 45207614593175269470420506670559166868983445250726704553828932677301074121632826073549749685068096605307405974175416294746607791587084922552605655240520265129173914191],
  [258165697641937000933414350402420448602639830906360152498898515682630672675322026718485191552183394157153439591480822031115277326421759453201831808274758717354692770033999638963955, 109023080833888058697875343835083632113505958957737221096197910818262412678150104198946014156314407065634844857445830803326821666359533890361763534004617677627696910812401415330955, 22766021339680131109767301316713111185413038833974949813116020791645261457583109724747244147666995484149727244819404964951258911407529015755176188739561900697394946670500955825786, 1923322072695031513564826322116410817007179753343567561811056444753516213840635891587426924261515276523863219235009463490756188673351460627982309576816230466232002478384199974264, 78433572950755539422994445794078062539252050764344311532131200700598301242903206763629392681521369687717371009606179858058482348203533880598125812876870701999012043910376816435, 1632038835184328708619323711954741079558815328834986296081343940556954666478404426188020535865462071862914547714591390171461740689210507984665409612418210742125033894472439451, 14691195426218979822199431256872318340013281970471094041540492067043721004303539618593688730756913799640082803473603194123113290454753712113037208881651848694118897451499429, 46415706954799569779716938431439633022875508936157445068433503866735244028957775996677422738458627592207960846361707872097191955742098499244807556197860672472516834265414, 41184236008024637228708819783647138140459347331816930951234294507272970998248356714585184300265281373514861075491365122031357194276689505916622403572830026662448268573],
  [256267473691773622690025168744302657251963734147277471198846298921694080882715209251084696824914579111282964968175836006450939278765878571944637357706920462638554829304250545405340, 107512970027600790368701605224938442776552739796658746326438645785054767541960680215492754204924339306141913954704320278722881193904321397348075176120218500020112303870144185527585, 22221719116220229979909624487970991749379974240498520910799146400434411354386613508131470874909037732142193351002025830227558885777123100695028570571391223318238769122059139454397, 1858034642977750893162772393807526169483000545197063205191324534099984347252558756055840189967991889930794383293053533443475766383137969075564170595210378794949321269480068311517, 75197872986713474926012874095331938032809615481220606892933915998903253717908460934809936969515970400845199149414435874778334900782279954689797129927838875204677521160400611386, 1550807918038099844835117495877525702661509946742632104103924917630886404408556778689958886895519664525570478034586346815903762513937433743190273518679671958509444890861206670, 13803984064151604163306978613235667877630816800201069798062135032933802782831426004471979306468970716285951028279701049562009742586039156019787230516920689179551282044779530, 43010386269587480283468515509605428203940732877365160199562862188002272763015342582438448647422156958814819045635256080028205833625037352594674931364937593424163455396834, 37540031332859921029908529228721069281097526677275952415471844755214596513935964720098534672813727559428296587317462241935129002381094233040988162793239147279887483282],
  [254384009851765991740064132880148364168171819051259322613683071564566775064239492884934041977645466359963037529663172788363359727355239005885082076504510171935060509470644277640893, 106025290623293687618571880520871331036894797687691855858540372735711735073033325516916673699004455947305248440892505085045496263870900387514949966286094577816940139954168678280901, 21691813942189503405546653156625827056698184478727953908461064694668190100537830609566147335237051412744404143957716960699519044812325826882814946288879607611637023673896699537906, 1795297295910608493217008226966989022023712251591001192146615088109717420127838742824873444201584513628211716545884724497798873758173368396328399630222658450010789033363230388832, 72113903518643658844977789771665323215016010628199866143504500964450607527197064595813795004963115682214602787235579635471379407792905546050868681340987671866839080110470075047, 1474064683390397938375289623072132475814796142765256681974956698972102487387202478936211739920465350148033410612276396521191105813852666054422082735338987964716981526200001819, 12975078338386171603432887519778746876147694874349413287050596966201069600350889967973627529330264205953876236753128448939953051231391146436563947098632745994852110915923689, 39872693808093174539555548650457628966123903054506953131796084283866225124872535659651456945342620038831628489409691255038410257269052436108894455724623705955089739690027, 34237260181225524457829553262515534727580269713909987952723474693694401415067527807833911261582333828619986496353727301079481922424270661374564679736711817610394717805],
  [252515186730603874105667084786011573193531113372922071872969931541095608258431330051141221070297419895203193621211642563406800112202829398181386518739806489200746866922957454090352, 104559692561064822713011688430454336688216986696367664049133295340316675252100400298787716871212030355936628155862959713296144797552642655952227753674157884547615885266980153396252, 21175895884774133840189570592762929958824686149721020951679959528641991994523168109403458492781445557504968521368703940821939250770817143599487714970821441853385741111071757563672, 1734998057135033370650975808372038027157473199885976227062467742052336549733031013115634585780391742859040105031075619512374673026009799064171595667463382626338238819232039196633, 69173662390526716984083254785733808095430007240806731671482335077754881853793361993262576198670942607721128834927760304222558029451549519845486919087130254830476000919080779954, 1401535890827169543561837254975467152295244777188452551052968228984832743091325291993378778516562384481676751685252278448513296562904942827111351631289683847497697076774619220, 12200328715952797542361009477833426608460235430925566070172303998774966519802532621429342796725460709664131198072435524296197850200549516354684658256869524269399211726598231, 36980177401006530949842718887744942956681972433498248235662201855453586208620588828627204272116005136568848666756922307669107504397339130321903012738691254480873888257736, 31242139286467530009519350996781180334614790152371164218317883871845820070965714232185110602855727596497161236709619341572483776071486960085293114840443807107974559341],
  [250660885930991561410499543712364616451177064462827499408400453653479945895410689254045467976476363044209085439512428130182833241757268375469093484649473585337605409570351804427769, 103115831443554014824750378831156510007901649187692963906376105053361056306430795298189701595953825822098940991426480255766187250201442168834877727551748134807528779187117111721933, 20673567332676884627356590364749768809013072440691004893846150210804344613415493922197337570140048621994975300361118156540944359081792907226030473840669719853725266230539879369787, 1677030361602227391326913490140044369720219990668664174024758682313464211006089577550943599298849914806608313918856966982156259569602564650774645827603688055096749895956471931872, 66369617440140102679553229366018658358343758115031457712114279868331984676352103966595010424915337134590300916147759734600001599279598108016500511559856471435652432305118470974, 1332966513775176027906296390304943828376935579783054455169133484131357255034788204993902400972446294564853627726954523502925871628486359268660353862076027146735719245877446071, 11475904014286658120718447282093513832575164795732997224512007169903905808179967108080608696042249175584420705672815689626851382941373672278852095351586837885784708034527342, 34312388930621391799201961824593662592428151767178108336473718193266262483664415343387508711783808076899296849452690969235934774133884143153882133793014058500220419419227, 28524406486768278442091219838186199565252836581107237973219967071371487316886898824580058369419516493785624411981065857577581436404302052406905093357233713110830715534],
  [248820990041189527377258169383524855731900855554237173852557974848860757944049251664171791944378285460185116870456389605150039943586759234245374728444317188503355770311125921351610, 101693368441853048934160819460380442281473464265900397823969357403837631158524847551593444398687991392187633759996231993582461320963789894680968311937074582880873838231426260735172, 20184442610500847072320429480097302952068621918686604103201836833968981025768636188112850654820315880274610097323473906426881732845347992394594159531226723095153802531019719244181, 1621292771462855305496610384002871293977530271594506094228026346600051424313369212334273554401450229747483315586053483701429020384918512154459786832007220547151829737067046757855, 63694676036365556711544531061458237108256482446310624498068014756367528571873867786204256311327697503094336584196418527500942767073856339217790807757414617151341035200006360487, 1268118418456992807673159527681590714471121569500138556630916732817177888718196837854579381061430394130178552970385474445861978287745599223188409421029693668045079687635046706, 10798265185345016379105381187300897494430179009892051771744910770913122759356270893523958209897301403144322346057463149443890061350374222747339213076311674894523486614780148, 31850694595937848177556223682316989803458291853431925551417750720346165265008150459435598433902101716306032201853848414951042245617618811092917335511693409617112517235400, 26056935081774310644598074961957261243981836990136282502983114621897972860504886676151701039787480786391883593540909526082515951988761604639674970241566125742728120440],
  [246995382626629289217665442326614532155758088705553875510353778444019561918576335959767175406365193628446920946439232505481756881769691112779171175442221896725827883441122813166430, 100291970203011918892775575379499352146648376887354682301875309563457404576325046297382545862529093931790095373396991864939654248097971615162147897980995253390510082653316474140520, 19708147605577789115384677598577341644722876348340306367994474486079842923681621565886449043557038625574646128529183373457853419256681443787118398925180341205647112310096898475029, 1567688709592321501005967454797662600005332803762023906739397614947013625200759724158119328894643338089787969820638659897867283476881655705173931175972799901064466019416117232297, 61142156776951151442998352237811695163559696870574824483844065587469742286961895674001641658172055458189134729890507539880882878922801659634057178751554064332456746302594383831, 1206769146511553943478602849041910576121062331940758004458936680651865869297500061946063905010110066348060710371026672992807467592166323649843416971186139518463779713517835954, 10164141407717914425853856435782254686332803612921388298083666412501709136436670314825308365784724514647669471099969558650439349567488609582146844175893965043930049344468304, 29578104176365723280171189111958754203673548921006906229164295722693027366460592958702226292431920058084103165613116420109219790566814127393590019291368425446834813993465, 23815392472288557453285639110683049708306991582728846610340260281269430514488851023607488325462608160194392785010077364621390845339301051786482938293518272621951436474],
  [245183948221600831735131052326373364965213754084780750648998911546831505270822850592990953395044640169535964534762388434547648707364063469398364467210458717135086009204736510046313, 98911308759113577914618665493206480859999002020510542007160186859076213512308947883357204112052686294563667984277745427579551552100125507033237515347981769276637880056885583622743, 19244319406829816950423220342329150785857444689579229447321839038384984081711996270836182604447447828401376695026086837233672963334641834944853290606652009820040604183259198398394, 1516126207842280328527530992150630885502413983816620567076745150577748709705045628376786966461969700304080715630232704823143855045030319145325954278753824379569338545508366901437, 58705763180410576099259557835279535656086177633207312501759067977809517538287826418786635225730274255923276949152349473129584225002990936648929177502936033290800503203940786242, 1148710792524318590830106812387064162451218446267486865694455444342649294262403413943965695364847584439916733434481871132019041455816848920158841669643756851033190450129910089, 9570508270314328991414495641496877712027127455338347054020646438625107880311377052620535141647624503077722301841054487612432836954796905187708994557731286904933251372732857, 27479117287435776132325815193272963737919036457011060033002636220628494598925547289757841487784392964936249946765663352576294049574120470303114321449775937263200959796576, 21777937762963711818541861510520806734462641504882650585169605096535926010322777746058958099440602213728654211807523188268435574026299239813012820789542500017717537040],
  [243386572321011957655824569658159681315800136436559793554724567710434230162250033385588809831382889191850606327467880679477681340772468122297170742803282009201763978599833644142442, 97551061437890160413470143274467110499064718666216100843351119570112350166169908901811443154038855374593604290378237235118032798869790727372381102947196172063387569982615317080898, 18792605955266912067935802742388307232131999229314646722676035417907270227933924374248657769761188137758654577612417585038799472131790655852635195818123908403904483730416708683755, 1466517669163975705130338613271603444143880903652892913852560919983327010092825975157101941143807655675055256924618434847587241021093937512621177562587382528894333423724477766831, 56379559219533681379963866315803958359092192054594697090230523344515130112843066607719998738942372182625183851517486467765430424648601402210806167925611014521640383427153527286, 1093748968503393869734492890658088872660480103756059598385330070622729753411494605238392592403649890970684629266775693185698205920494873234508610982934718229334084021172840347, 9014567852745061686955986107756447437845461034691118158761579623090899006468581019634381654090114402032465596225580857875641482172207325228960725896444645163085151075179570, 25539584844902886333494500677265902869119399880626729535838966940989288325935211413661305660575133895926049334166435744883874939743482198095185590071245065714960525821496, 19924953675306327127027435866226384540721576577949104930941528759072973704753675227514036112198530899704104604239182899261041058982690410519454729867814408530695566914]]

end TNS.Data
